import Verif.Proofs.Cost
import Verif.Proofs.Judged
import Verif.Proofs.FallbackDepth
import Verif.Props.Memory
import Verif.Props.Fallback

/-!
# C62: how often Extract accesses the trie
-/

set_option linter.unusedSimpArgs false

namespace Fasttld.Props
open Fasttld Fasttld.Spec Trie _root_.Fasttld.Inv

/-- C62: whatever is in memory, Extract stores nothing in it. -/
theorem C62_only_reads (idna : Idna) (e : URLParams) : OnlyLoads (extractH idna e) := extractH_loads idna e

/-- C62: whatever other goroutines do in between, an Extract makes no access, or one to find the trie and at most four for
every label of the host, and not for more labels than the longest rule has (or one, if there are no rules). -/
theorem C62_bound {idna : Idna} {jobs : List Job} {rules0 : List Bytes} {s0 s : Sys} (h0 : Start idna jobs rules0 s0)
    {i n d : Nat} {e : URLParams} (hi : jobs[i]? = some (.extract e)) (hd : RulesWithin d rules0)
    (hu : ∀ (j : Nat) rules, jobs[j]? = some (.update rules) → RulesWithin d rules) (h : StepsOf i n s0 s) :
    n = 0 ∨ ∃ sch ui host after port path name first rest tail, Authority e.url sch ui (host ++ after) ∧ IsPlainHost host ∧
      AfterHost after port path ∧ HostTextOf idna e.convertURLToPunyCode host name ∧ HostShape name first rest tail ∧
      n ≤ 1 + 4 * min (first :: rest.map Prod.snd).length (max d 1) := by
  rcases job_readsIn idna e with ⟨v, hv⟩ | ⟨k, host, after, name, u, hk, ⟨h1, h2, h3, h4⟩, hB⟩
  · exact .inl (StepsOf.ret h0 hi h hv).1
  · refine .inr ?_
    obtain ⟨first, rest, tail, hs⟩ := hostShape_exists name
    refine ⟨_, _, host, after, _, _, name, first, rest, tail, h1, h2, h3, h4, hs, ?_⟩
    obtain ⟨ts, t1, t2, -⟩ := hs.split
    have hL : (hostSplit name).2.length + 1 - leadEmpty (hostSplit name).2 = (first :: rest.map Prod.snd).length := by
      rw [t1]; simp only [t2]; simp; omega
    rw [hL] at hB
    obtain ⟨F, Os, -, p, -, hc⟩ := StepsOf.count h0 hi hd hu hk (fun F r t hr ht => hB F r t d hr ht) h
    unfold readBound at hc
    rcases hc with ⟨rfl, -⟩ | ⟨v, b, -, hle⟩
    · omega
    · omega

/-! ## The built-in list -/

variable {idna : Idna} {f : Bytes → Bytes} {priv : Bool} {lines : List Bytes}

theorem dots_builtIn (priv : Bool) : ∀ r ∈ rulesIn (builtInParts priv), (revLabels r).length ≤ if priv then 7 else 4 := by
  intro r hr
  obtain ⟨n, h1, h2, rfl⟩ := mem_rulesIn.1 hr
  rw [revLabels_length]
  cases priv with
  | false =>
    have := lineDots_sound (allOK_sound dotsPublic n h1) h2
    simpa using this
  | true =>
    rw [show builtInParts true = builtInParts false ++ _ from rfl, List.flatten_append, List.mem_append] at h1
    rcases h1 with h1 | h1
    · have := lineDots_sound (allOK_sound dotsPublic n h1) h2
      simp only [if_true]; omega
    · have := lineDots_sound (allOK_sound dotsPrivate n h1) h2
      simpa using this

/-- C62: the rules of the built-in list have at most four labels, with the private section at most seven. -/
theorem C62_depth (hb : BuiltIn priv lines) (hf : ByLabel idna.toASCII f (lines.filter (fun t => decide (IsRuleLine t)))) :
    RulesWithin (if priv then 7 else 4) (rulesOf idna.toASCII lines) := by
  have hf := byLabel_used hb hf
  rw [builtIn_rules _ hb]
  intro p hp
  obtain ⟨r, hr, rfl | rfl⟩ := (rule_iff hf).1 hp
  · exact dots_builtIn priv r hr
  · rw [List.length_map]; exact dots_builtIn priv r hr

/-- C62: with the built-in list Extract makes at most 17 accesses, with the private section at most 29, for any URL. -/
theorem C62_builtin {jobs : List Job} {s0 s : Sys} (hb : BuiltIn priv lines)
    (hf : ByLabel idna.toASCII f (lines.filter (fun t => decide (IsRuleLine t))))
    (h0 : Start idna jobs (rulesOf idna.toASCII lines) s0) {i n : Nat} {e : URLParams} (hi : jobs[i]? = some (.extract e))
    (hu : ∀ (j : Nat) rules, jobs[j]? = some (.update rules) → rules = rulesOf idna.toASCII lines) (h : StepsOf i n s0 s) :
    n ≤ if priv then 29 else 17 := by
  have hd := C62_depth hb hf
  rcases C62_bound h0 hi hd (fun j rules hj => by rw [hu j rules hj]; exact hd) h with rfl | ⟨_, _, _, _, _, _, _, _, _, _, -, -, -, -, -, hle⟩
  · omega
  · cases priv with
    | false => simp only [Bool.false_eq_true, if_false] at hle ⊢; omega
    | true => simp only [if_true] at hle ⊢; omega

/-! ## The bound is attained -/

/-- `n` loads, one after the other. -/
def loads (m : Mem) : Nat → MProg Outcome → Option (MProg Outcome)
  | 0, p => some p
  | _ + 1, .ret _ => none
  | n + 1, .call .loadRoot k => loads m n (k m.root)
  | n + 1, .call (.get r key) k => (m.nodes r).bind fun nd => loads m n (k (hget nd.kids key))
  | n + 1, .call (.isEnd r) k => (m.nodes r).bind fun nd => loads m n (k nd.isEnd)
  | n + 1, .call (.len r) k => (m.nodes r).bind fun nd => loads m n (k nd.kids.length)
  | _ + 1, .call _ _ => none

theorem stepsOf_head {i n : Nat} {s s' s'' : Sys} (h : Step i s s') (h' : StepsOf i n s' s'') : StepsOf i (n + 1) s s'' := by
  induction h' with
  | refl => exact .own (.refl _) h
  | own _ hs ih => exact .own (ih h) hs
  | other _ hj hs ih => exact .other (ih h) hj hs

theorem loads_steps {m : Mem} {n : Nat} {p p' : MProg Outcome} (h : loads m n p = some p') :
    StepsOf 0 n ⟨m, [p]⟩ ⟨m, [p']⟩ := by
  induction n generalizing p with
  | zero => simp only [loads, Option.some.injEq] at h; subst h; exact .refl _
  | succ n ih =>
    cases p with
    | ret a => simp [loads] at h
    | call o k =>
      cases o <;> simp only [loads, Option.bind_eq_some_iff] at h
      case loadRoot => exact stepsOf_head (s' := ⟨m, [_]⟩) (.mk rfl ⟨rfl, rfl⟩) (ih h)
      case get => obtain ⟨nd, h1, h2⟩ := h; exact stepsOf_head (s' := ⟨m, [_]⟩) (.mk rfl ⟨nd, h1, rfl, rfl⟩) (ih h2)
      case isEnd => obtain ⟨nd, h1, h2⟩ := h; exact stepsOf_head (s' := ⟨m, [_]⟩) (.mk rfl ⟨nd, h1, rfl, rfl⟩) (ih h2)
      case len => obtain ⟨nd, h1, h2⟩ := h; exact stepsOf_head (s' := ⟨m, [_]⟩) (.mk rfl ⟨nd, h1, rfl, rfl⟩) (ih h2)
      all_goals simp at h

/-- The structure for the list with the one rule `b.c`. -/
def exCostMem : Mem where
  nodes := fun r => match r with
    | 0 => some ⟨false, [(b! "c", 1)]⟩
    | 1 => some ⟨false, [(b! "b", 2)]⟩
    | 2 => some ⟨true, []⟩
    | _ => none
  root := 0

theorem exCost_find (p : List Bytes) : exCostMem.nodes.find 0 p =
    if p = [] then some 0 else if p = [b! "c"] then some 1 else if p = [b! "c", b! "b"] then some 2 else none := by
  match p with
  | [] => rfl
  | [l] =>
    by_cases h : l = b! "c"
    · subst h; rfl
    · simp [Nodes.find, exCostMem, hget, h, Ne.symm h]
  | [l, l'] =>
    by_cases h : l = b! "c"
    · subst h
      by_cases h' : l' = b! "b"
      · subst h'; rfl
      · simp [Nodes.find, exCostMem, hget, h', Ne.symm h']
    · simp [Nodes.find, exCostMem, hget, h, Ne.symm h]
  | l :: l' :: l'' :: p =>
    by_cases h : l = b! "c"
    · subst h
      by_cases h' : l' = b! "b"
      · subst h'; simp [Nodes.find, exCostMem, hget]
      · simp [Nodes.find, exCostMem, hget, h', Ne.symm h']
    · simp [Nodes.find, exCostMem, hget, h, Ne.symm h]

theorem exCost_holds : Holds exCostMem.nodes exCostMem.root [b! "b.c"] := by
  have hr : [b! "b.c"].map revLabels = [[b! "c", b! "b"]] := by decide
  have hpre : ∀ p, PrefixAt [b! "b.c"] p ↔ p <+: [b! "c", b! "b"] := by
    intro p; rw [prefixAt_iff, hr]; simp
  refine ⟨fun p => ?_, fun p => ?_, ?_⟩
  · rw [hpre, show exCostMem.root = 0 from rfl, exCost_find]
    rw [show ([b! "c", b! "b"] : List Bytes) = b! "c" :: b! "b" :: [] from rfl]
    by_cases h1 : p = []
    · simp [h1]
    by_cases h2 : p = [b! "c"]
    · subst h2; simp
    by_cases h3 : p = [b! "c", b! "b"]
    · subst h3; simp
    · simp only [h1, h2, h3, if_false, Option.isSome_none, Bool.false_eq_true, false_or, false_iff]
      intro hp
      have := List.prefix_iff_eq_take.1 hp
      have hlen := hp.length_le
      match p, hlen with
      | [], _ => exact h1 rfl
      | [x], _ => exact h2 this
      | [x, y], _ => exact h3 this
  · rw [ruleAt_iff, hr]
    constructor
    · rintro ⟨x, nd, h1, h2, h3⟩
      rw [show exCostMem.root = 0 from rfl, exCost_find] at h1
      by_cases h4 : p = []
      · rw [if_pos h4] at h1; cases h1; cases h2; cases h3
      rw [if_neg h4] at h1
      by_cases h5 : p = [b! "c"]
      · rw [if_pos h5] at h1; cases h1; cases h2; cases h3
      rw [if_neg h5] at h1
      by_cases h6 : p = [b! "c", b! "b"]
      · left; simp [h6]
      · rw [if_neg h6] at h1; cases h1
    · rintro (h | ⟨l, rfl, h⟩)
      · obtain rfl : p = [b! "c", b! "b"] := by simpa using h
        exact ⟨2, _, by rw [show exCostMem.root = 0 from rfl, exCost_find]; rfl, rfl, rfl⟩
      · rw [hpre] at h
        have := List.prefix_iff_eq_take.1 h
        simp at this
        exact absurd this.2 (by decide)
  · intro p x nd h1 h2 e he
    rw [show exCostMem.root = 0 from rfl, exCost_find] at h1
    have hx : x = 0 ∨ x = 1 ∨ x = 2 := by
      by_cases h4 : p = []
      · rw [if_pos h4] at h1; cases h1; simp
      rw [if_neg h4] at h1
      by_cases h5 : p = [b! "c"]
      · rw [if_pos h5] at h1; cases h1; simp
      rw [if_neg h5] at h1
      by_cases h6 : p = [b! "c", b! "b"]
      · rw [if_pos h6] at h1; cases h1; simp
      · rw [if_neg h6] at h1; cases h1
    rcases hx with rfl | rfl | rfl <;> cases h2 <;> simp at he <;> subst he <;> rfl

/-- C62: nine accesses for `a.b.c` and for `b.c`, with the one rule `b.c`: no smaller bound holds for rules of two labels. -/
theorem C62_attained : ∀ url ∈ [b! "b.c", b! "a.b.c", b! "x.a.b.c..."],
    ∃ s0 s : Sys, Start idId [.extract ⟨url, false, false⟩] [b! "b.c"] s0 ∧ RulesWithin 2 [b! "b.c"] ∧ StepsOf 0 9 s0 s ∧
      9 = 1 + 4 * min 2 (max 2 1) := by
  intro url hu
  have key : ∀ url ∈ [b! "b.c", b! "a.b.c", b! "x.a.b.c..."],
      (loads exCostMem 9 ((Job.extract ⟨url, false, false⟩).prog idId)).isSome = true := by decide +kernel
  obtain ⟨p', hp⟩ := Option.isSome_iff_exists.1 (key url hu)
  refine ⟨⟨exCostMem, [(Job.extract ⟨url, false, false⟩).prog idId]⟩, _, ⟨exCost_holds, ⟨3, fun r hr => ?_⟩, rfl⟩, ?_, loads_steps hp, by decide⟩
  · match r, hr with
    | r + 3, _ => rfl
  · intro p hp
    rw [ruleAt_iff] at hp
    obtain rfl : p = [b! "c", b! "b"] := by
      have : [b! "b.c"].map revLabels = [[b! "c", b! "b"]] := by decide
      rw [this] at hp; simpa using hp
    decide

/-- An address in brackets, or an error before the host name: no access at all. -/
example : ∀ url ∈ [b! "http://[::1]/", b! "http://[zz]", b! "a.com:99999", b! "a%zz.com"],
    (loads exCostMem 1 ((Job.extract ⟨url, false, false⟩).prog idId)).isNone = true := by decide +kernel

/-- A longer host: there is no tenth access. -/
example : (loads exCostMem 10 ((Job.extract ⟨b! "x.a.b.c", false, false⟩).prog idId)).isNone = true := by decide +kernel

end Fasttld.Props
