import Verif.Proofs.SourceShared
import Verif.Proofs.SourceTrie
import Verif.Proofs.TextThreads
import Verif.Props.SourceMem

/-!
# C82: Extract on a trie in memory, by the text; goroutines that run the text

The text of Extract (Model/Source.lean), run by the rules of the language with memory (Model/GoMem.lean), makes the accesses
of the model (Model/Memory.lean).  With C81: what C51 and C45 say of the model holds for goroutines that run the text.
-/

namespace Fasttld.Props
open Fasttld Fasttld.GoLang

variable {w : Nat} (hw : 32 ≤ w) (idna : Idna) (texts : Lib) (isPrint : Nat → Bool)

theorem reads_ends {α : Type} {F : Nodes} {v : α} {p : MProg α} (h : p.reads F v) {m : Mem} (hs : F.Sub m.nodes) : Fasttld.Runs p m v m := by
  induction p with
  | ret a => cases h; exact .ret _ _
  | call o k ih =>
    obtain ⟨b, m', hd⟩ := MOp.sees_can h hs
    obtain ⟨rfl, h1⟩ := MOp.sees_step h hs hd
    exact .call hd (ih b h1)

theorem mbind_ret {α : Type} (p : MProg α) : p.bind .ret = p := by
  induction p with
  | ret a => rfl
  | call o k ih => simp only [MProg.bind, ih]

include hw

/-- C82: Extract, fasttld.go:142-400: the accesses of the model, then its results with the text of the error. -/
theorem C82_accesses (e : URLParams) (hurl : (e.url.length : Int) + 4 < 2 ^ (w - 1))
    (hidna : ∀ v a : Bytes, v.length ≤ e.url.length → idna.lookupASCII v = some a → (a.length : Int) + 4 < 2 ^ (w - 1)) :
    ∃ N, ∀ fuel, N ≤ fuel →
      Sim (Returned isPrint []) (runText (sourceCtx w idna texts isPrint) fuel .Extract [.ext, .params e]) (extractH idna e) := by
  rw [sourceCtx_eq (big_of hw) (two31_le hw)]
  have hM : ∀ v : Bytes, v.length ≤ e.url.length → (formatAsPunycode idna v).length ≤ ((2 : Int) ^ (w - 1) - 5).toNat := by
    intro v hv
    unfold formatAsPunycode
    split
    · next a ha => have := hidna v a hv ha; omega
    · simp
  refine ⟨((2 : Int) ^ (w - 1) - 5).toNat + 12, fun fuel h => ?_⟩
  obtain ⟨f, rfl⟩ : ∃ m, fuel = m + 2 := ⟨fuel - 2, by omega⟩
  exact callMem_Extract (big_of hw) (two31_le hw) f e (by omega) (by omega) (by omega) hM []

/-- C82: the text loads `f.tldTrie` at most once, then it only reads nodes. -/
theorem C82_loads_once (e : URLParams) (hurl : (e.url.length : Int) + 4 < 2 ^ (w - 1))
    (hidna : ∀ v a : Bytes, v.length ≤ e.url.length → idna.lookupASCII v = some a → (a.length : Int) + 4 < 2 ^ (w - 1)) :
    ∃ N, ∀ fuel, N ≤ fuel → LoadsOnce (runText (sourceCtx w idna texts isPrint) fuel .Extract [.ext, .params e]) := by
  obtain ⟨N, h⟩ := C82_accesses hw idna texts isPrint e hurl hidna
  exact ⟨N, fun fuel hf => (h fuel hf).loadsOnce (extractH_loadsOnce idna e)⟩

/-- C82: where `f.tldTrie` points to the structure for a list the text ends without a panic, with the results for that list, and
memory is as it was. -/
theorem C82_extract (e : URLParams) (hurl : (e.url.length : Int) + 4 < 2 ^ (w - 1))
    (hidna : ∀ v a : Bytes, v.length ≤ e.url.length → idna.lookupASCII v = some a → (a.length : Int) + 4 < 2 ^ (w - 1)) :
    ∃ N, ∀ fuel, N ≤ fuel → ∀ (m : Mem) (rules : List Bytes), Spec.Holds m.nodes m.root rules →
      ∃ r er, extract idna (buildTrie rules) e = .ok (r, er) ∧ ∀ v m',
        Fasttld.Runs (runText (sourceCtx w idna texts isPrint) fuel .Extract [.ext, .params e]) m v m' ↔
          v = .ok (.tuple [.result r, .err (er.map (Err.text isPrint))], []) ∧ m' = m := by
  obtain ⟨N, h⟩ := C82_accesses hw idna texts isPrint e hurl hidna
  refine ⟨N, fun fuel hf m rules hm => ⟨_, _, extract_eq idna _ e, fun v m' => ⟨fun hr => ?_, fun hv => ?_⟩⟩⟩
  · obtain ⟨g, hg, hr'⟩ := (h fuel hf).runs hr
    obtain ⟨rfl, rfl⟩ := C51_extract idna rules e hm hr'
    rw [extract_eq] at hg
    exact ⟨hg, rfl⟩
  · obtain ⟨g, m2, hg⟩ : ∃ g m2, Fasttld.Runs (extractH idna e) m g m2 := by
      rcases extractH_cases idna e with ⟨x, h1, -⟩ | ⟨k, h1, h2⟩
      · exact ⟨x, m, by rw [h1]; exact .ret _ _⟩
      · exact ⟨_, m, by rw [h1]; exact .call (b := m.root) (m' := m) ⟨rfl, rfl⟩ (reads_ends (h2 _ _ _ (Rep.of_holds hm)) (Nodes.Sub.refl _))⟩
    obtain ⟨hg1, rfl⟩ := C51_extract idna rules e hm hg
    obtain ⟨x, hx, hx2⟩ := (h fuel hf).symm.runs hg
    rw [hg1, extract_eq] at hx
    obtain ⟨rfl, rfl⟩ := hv
    rw [← (show x = _ from hx)]
    exact hx2

/-- A goroutine of the text makes the accesses of the model. -/
theorem C82_jobs (jobs : List TextJob) (hj : ∀ j ∈ jobs, j.Fits w idna texts) :
    ∃ N, ∀ fuel, N ≤ fuel → ∀ j ∈ jobs, Sim (Ends isPrint) (j.prog (sourceCtx w idna texts isPrint) fuel) ((j.job idna texts).prog idna) := by
  induction jobs with
  | nil => exact ⟨0, fun _ _ j h => (by simp at h)⟩
  | cons j jobs ih =>
    obtain ⟨N, hN⟩ := ih fun j h => hj j (by simp [h])
    have hone : ∃ N, ∀ fuel, N ≤ fuel → Sim (Ends isPrint) (j.prog (sourceCtx w idna texts isPrint) fuel) ((j.job idna texts).prog idna) := by
      have hfit := hj j (by simp)
      cases j with
      | extract e =>
        obtain ⟨N, h⟩ := C82_accesses hw idna texts isPrint e hfit.1 hfit.2
        refine ⟨N, fun fuel hf => ?_⟩
        have h1 := Sim.bind (S := Ends isPrint) (h fuel hf) (k := .ret) (l := fun r => .ret (.extracted r)) fun a b hab => .ret hab
        rw [mbind_ret] at h1
        exact h1
      | update incl path =>
        obtain ⟨text, ht, hl⟩ := hfit
        obtain ⟨N, h⟩ := C81_accesses hw idna texts isPrint incl path text ht hl
        refine ⟨N, fun fuel hf => ?_⟩
        simp only [TextJob.prog, TextJob.job, ht]
        refine Sim.bind (h fuel hf) fun a b hab => ?_
        obtain ⟨A, rfl⟩ := hab
        exact .call _ fun _ => .ret ⟨A, rfl⟩
    obtain ⟨N', hN'⟩ := hone
    refine ⟨max N N', fun fuel hf j' h => ?_⟩
    rcases List.mem_cons.1 h with rfl | h
    · exact hN' fuel (by omega)
    · exact hN fuel (by omega) j' h

/-- C82: any number of goroutines that run the text of Extract, and of Update from the point where the new list is in the
file, on one extractor, in any interleaving of their accesses (see C45 for what that leaves out).
At every moment `f.tldTrie` points to the complete structure for the first list or for one whose Update is done.
An Extract that begins after `s1` and is done in `s2` returns the results for the list that was there at a moment in between.
Every goroutine that is not done can make its next access: no panic, no waiting. -/
theorem C82_goroutines (jobs : List TextJob) (hj : ∀ j ∈ jobs, j.Fits w idna texts) :
    ∃ N, ∀ fuel, N ≤ fuel → ∀ rules0 s0, TextStart (sourceCtx w idna texts isPrint) fuel jobs rules0 s0 →
      (∀ s, TextSteps s0 s → ∃ rules, Spec.Holds s.mem.nodes s.mem.root rules ∧ (rules = rules0 ∨ ∃ j, s.Updated idna texts jobs j rules)) ∧
      (∀ s1 s2 (i : Nat) e v, TextSteps s0 s1 → TextSteps s1 s2 → jobs[i]? = some (.extract e) →
        s1.threads[i]? = some ((TextJob.extract e).prog (sourceCtx w idna texts isPrint) fuel) → s2.threads[i]? = some (.ret v) →
        ∃ s rules r er, TextSteps s1 s ∧ TextSteps s s2 ∧ Spec.Holds s.mem.nodes s.mem.root rules ∧
          (rules = rules0 ∨ ∃ j, s.Updated idna texts jobs j rules) ∧ extract idna (buildTrie rules) e = .ok (r, er) ∧
          v = .ok (.tuple [.result r, .err (er.map (Err.text isPrint))], [])) ∧
      (∀ s (i : Nat) p, TextSteps s0 s → s.threads[i]? = some p → (∃ x A, p = .ret (.ok (x, A))) ∨ ∃ s', TextStep i s s') := by
  obtain ⟨N, h⟩ := C82_jobs hw idna texts isPrint jobs hj
  have hf : ∀ incl path, TextJob.update incl path ∈ jobs → ∃ text, listText texts path = .ok text :=
    fun incl path hm => (hj _ hm).imp fun _ h => h.1
  refine ⟨N, fun fuel hN rules0 s0 h0 => ?_⟩
  have hone : ∀ s1 s2 (i : Nat) e v, TextSteps s0 s1 → TextSteps s1 s2 → jobs[i]? = some (.extract e) →
      s1.threads[i]? = some ((TextJob.extract e).prog (sourceCtx w idna texts isPrint) fuel) → s2.threads[i]? = some (.ret v) →
      ∃ s rules r er, TextSteps s1 s ∧ TextSteps s s2 ∧ Spec.Holds s.mem.nodes s.mem.root rules ∧
        (rules = rules0 ∨ ∃ j, s.Updated idna texts jobs j rules) ∧ extract idna (buildTrie rules) e = .ok (r, er) ∧
        v = .ok (.tuple [.result r, .err (er.map (Err.text isPrint))], []) := by
    intro s1 s2 i e v h1 h2 hi hb hd
    obtain ⟨s, rules, a1, a2, a3, a4, a5⟩ := text_one_list h0 (h fuel hN) hf h1 h2 hi hb hd
    rw [extract_eq] at a5
    exact ⟨s, rules, _, _, a1, a2, a3, a4, extract_eq idna _ e, a5⟩
  refine ⟨fun s hs => text_always h0 (h fuel hN) hf hs, hone, fun s i p hs hi => ?_⟩
  rcases text_next h0 (h fuel hN) hs hi with ⟨v, rfl, hu⟩ | h
  · refine .inl ?_
    cases hj : jobs[i]? with
    | none =>
      have h1 := (List.getElem?_eq_some_iff.1 hi).1
      rw [← hs.length, h0.threads, List.length_map] at h1
      rw [List.getElem?_eq_none_iff] at hj; omega
    | some j =>
      cases j with
      | update incl path =>
        obtain ⟨A, rfl⟩ := hu _ _ hj
        exact ⟨_, _, rfl⟩
      | extract e =>
        obtain ⟨_, _, r, er, -, -, -, -, -, rfl⟩ := hone s0 s i e v (.refl _) hs hj (by rw [h0.threads, List.getElem?_map, hj]; rfl) hi
        exact ⟨_, _, rfl⟩
  · exact .inr h

omit hw

/-- There is a start for every list and all jobs. -/
theorem C82_start (c : Ctx) (fuel : Nat) (jobs : List TextJob) (rules0 : List Bytes) : ∃ s, TextStart c fuel jobs rules0 s := by
  obtain ⟨m, h1, h2⟩ := C51_memory rules0
  exact ⟨⟨m, jobs.map (TextJob.prog c fuel)⟩, h1, h2, rfl⟩

/-! ## Concrete cases: the text, run -/

/-- Goroutines make their accesses in the order of a list; each sees the latest values. -/
def runOrder : List Nat → WMem × List (MProg (Comp (Val × Arrays))) → Option (WMem × List (MProg (Comp (Val × Arrays))))
  | [], s => some s
  | i :: is, (m, ps) => match ps[i]? with
    | some (.call o k) => match o.weak 0 0 m with
      | some (b, m') => runOrder is (m', ps.set i (k b))
      | none => none
    | _ => none

/-- What a goroutine that is done has returned: subdomain, domain and suffix. -/
def doneParts : MProg (Comp (Val × Arrays)) → Option (List Bytes)
  | .ret (.ok (.tuple [.result r, .err none], _)) => some [r.subDomain, r.domain, r.suffix]
  | .ret (.ok (.err none, _)) => some []
  | _ => none

/-- Goroutines on one extractor with an empty trie. -/
def orderParts (jobs : List TextJob) (is : List Nat) : Option (List (Option (List Bytes))) :=
  (runOrder is (freshMem, jobs.map (TextJob.prog pslCtx 60))).map fun s => s.2.map doneParts

-- an Update with the list *.ck, ü and an Extract: it begins after the Update, or just before the list is published
example : orderParts [.update false (b! "f"), .extract ⟨b! "https://a.b.c.ck/x", false, false⟩] (List.replicate 26 0 ++ List.replicate 7 1) =
      some [some [], some [b! "a", b! "b", b! "c.ck"]] ∧
    orderParts [.update false (b! "f"), .extract ⟨b! "https://a.b.c.ck/x", false, false⟩] (List.replicate 25 0 ++ [1, 0, 1, 1]) =
      some [some [], some [b! "a.b.c", b! "ck", b! ""]] := by decide +kernel
-- a URL that is an error before the trie is read: no access
example : (match runAlone (runText pslCtx 60 .Extract [.ext, .params ⟨b! "a:b:99999", false, false⟩]) ⟨fun _ => [], [], 0⟩ with
    | some (.ok (.tuple [.result _, .err e], []), _) => some e.isSome
    | _ => none) = some true := by decide +kernel

end Fasttld.Props
