import Verif.Proofs.Shared
import Verif.Props.System

/-!
# C59: several processes with one cache file
-/

set_option linter.unusedSimpArgs false

namespace Fasttld.Props
open Fasttld Fasttld.Spec Fasttld.Shared

/-- C59: any number of processes run New or Update, in any order and with writes in pieces; some die.  If every list on
offer is `body`, and the default cache file, if there is one at first, holds a beginning of `body`, then it always
does, and each New and Update that returns has the rules of the whole list, or the built-in ones (New), or an error and
the rules it had before (Update), or (New) rules from a file of its own. -/
theorem C59_shared (idna : Idna) (hard : Bytes) {body : Bytes} (hb : WellTerminated body) {w₀ w : World} {ps : List Process}
    (hw : Coherent w₀) (hs : Stripped (defaultPath w₀) (defaultPath w₀)) (ho : OnlyOffers w₀ body)
    (hc : ∀ c, contentAt w₀ (w₀.loc (defaultPath w₀)) = some (some c) → c <+: body)
    (h : Steps idna hard (Undisturbed body) (w₀, []) (w, ps)) :
    (∀ c, contentAt w (w.loc (defaultPath w)) = some (some c) → c <+: body) ∧
    ∀ job off x err, ⟨job, .ret (x, err), off⟩ ∈ ps → Finishes idna hard body w job x err := by
  obtain ⟨hf, hg⟩ := steps_sound (s := ⟨w₀.tmp, w₀.loc, w₀.absOf, body⟩) hb hw (stripped_iff.1 hs).symm h
    ⟨rfl, rfl, rfl, ho, hc⟩ (by simp)
  have e : w.loc (defaultPath w) = w₀.loc (defaultPath w₀) := by
    have h1 : w.tmp = w₀.tmp := hf.tmp
    have h2 : w.loc = w₀.loc := hf.loc
    rw [defaultPath, defaultPath, h1, h2]
  refine ⟨by rw [e]; exact hf.cache, fun job off x err hm => ?_⟩
  obtain ⟨kn, -, hq⟩ := hg _ hm
  cases job with
  | update f => exact hq
  | new n =>
    obtain ⟨h1, h2⟩ := hq
    refine ⟨h1, h2.imp id (.imp id fun h => ⟨h.1, fun hn => ?_⟩)⟩
    rw [e, show w.loc = w₀.loc from hf.loc]
    exact h.2 (stripped_iff.1 hn).symm

/-- C59: and the contents of the cache file only ever get longer: what is there stays. -/
theorem C59_grows (idna : Idna) (hard : Bytes) {body : Bytes} (hb : WellTerminated body) {w₀ w w' : World} {ps ps' : List Process}
    (hw : Coherent w₀) (hs : Stripped (defaultPath w₀) (defaultPath w₀)) (ho : OnlyOffers w₀ body)
    (hc : ∀ c, contentAt w₀ (w₀.loc (defaultPath w₀)) = some (some c) → c <+: body)
    (h : Steps idna hard (Undisturbed body) (w₀, []) (w, ps)) (h' : Steps idna hard (Undisturbed body) (w, ps) (w', ps')) {c : Bytes}
    (hc' : contentAt w (w.loc (defaultPath w)) = some (some c)) :
    ∃ c', contentAt w' (w'.loc (defaultPath w')) = some (some c') ∧ c <+: c' := by
  have hbeg : Fits ⟨w₀.tmp, w₀.loc, w₀.absOf, body⟩ w₀ := ⟨rfl, rfl, rfl, ho, hc⟩
  obtain ⟨hf, hg⟩ := steps_sound (s := ⟨w₀.tmp, w₀.loc, w₀.absOf, body⟩) hb hw (stripped_iff.1 hs).symm h hbeg (by simp)
  have place : ∀ {v : World}, Fits ⟨w₀.tmp, w₀.loc, w₀.absOf, body⟩ v →
      v.loc (defaultPath v) = Setting.cache ⟨w₀.tmp, w₀.loc, w₀.absOf, body⟩ := by
    intro v hv
    have h1 : v.tmp = w₀.tmp := hv.tmp
    have h2 : v.loc = w₀.loc := hv.loc
    rw [defaultPath, h1, h2]
    rfl
  obtain ⟨hf', -, hgr⟩ := steps_grow (s := ⟨w₀.tmp, w₀.loc, w₀.absOf, body⟩) hb hw (stripped_iff.1 hs).symm h' hf hg
  rw [place hf] at hc'
  rw [place hf']
  exact hgr c hc'

/-! ## Concrete cases -/

/-- A schedule: who does what next. -/
inductive Turn
  | start (job : Job)
  | call (i : Nat)
  | piece (i n : Nat)
  | die (i : Nat)
  | net (f : Bytes → Response)

/-- One turn; nothing happens if it is not possible. -/
def turn (idna : Idna) (hard : Bytes) : Turn → World × List Process → World × List Process
  | .start job, (w, ps) => (w, ps ++ [⟨job, job.prog idna hard, 0⟩])
  | .net f, (w, ps) => ({ w with net := f }, ps)
  | .die i, (w, ps) => (w, ps.take i ++ ps.drop (i + 1))
  | .call i, (w, ps) =>
    match ps.drop i with
    | ⟨job, .call o k, off⟩ :: b => ((o.answer (seenBy w off)).2,
        ps.take i ++ ⟨job, k (o.answer (seenBy w off)).1, (o.answer (seenBy w off)).2.offset⟩ :: b)
    | _ => (w, ps)
  | .piece i n, (w, ps) =>
    match ps.drop i with
    | ⟨job, .call (.write h body) k, off⟩ :: b => ((seenBy w off).put h (body.take n),
        ps.take i ++ ⟨job, .call (.write h (body.drop n)) k, ((seenBy w off).put h (body.take n)).offset⟩ :: b)
    | _ => (w, ps)

/-- All turns of a schedule. -/
def play (idna : Idna) (hard : Bytes) (ts : List Turn) (s : World × List Process) : World × List Process :=
  ts.foldl (fun s t => turn idna hard t s) s

/-- Only the network changes. -/
def NetChanges (w w' : World) : Prop := ∃ f, w' = { w with net := f }

theorem turn_steps (idna : Idna) (hard : Bytes) {other : World → World → Prop} {t : Turn}
    (ht : ∀ f w, t = .net f → other w { w with net := f }) (s : World × List Process) :
    Steps idna hard other s (turn idna hard t s) := by
  obtain ⟨w, ps⟩ := s
  cases t with
  | start job => exact .step (.refl _) (.start job)
  | net f => exact .step (.refl _) (.other (ht f w rfl))
  | die i =>
    show Steps _ _ _ _ (w, ps.take i ++ ps.drop (i + 1))
    by_cases hi : i < ps.length
    · have e : ps = ps.take i ++ ps[i] :: ps.drop (i + 1) := by
        rw [List.getElem_cons_drop, List.take_append_drop]
      conv => arg 4; rw [e]
      exact .step (.refl _) .die
    · rw [List.take_of_length_le (by omega), List.drop_eq_nil_of_le (by omega), List.append_nil]
      exact .refl _
  | call i =>
    simp only [turn]
    split
    · rename_i job β o k off b hd
      have e : ps = ps.take i ++ ⟨job, .call o k, off⟩ :: b := by rw [← hd, List.take_append_drop]
      conv => arg 4; rw [e]
      exact .step (.refl _) (.call rfl)
    · exact .refl _
  | piece i n =>
    simp only [turn]
    split
    · rename_i job h body k off b hd
      have e : ps = ps.take i ++ ⟨job, .call (.write h body) k, off⟩ :: b := by rw [← hd, List.take_append_drop]
      conv => arg 4; rw [e]
      exact .step (.refl _) (.piece n rfl)
    · exact .refl _

theorem Steps.trans {idna : Idna} {hard : Bytes} {other} {s t u} (h : Steps idna hard other s t) (h' : Steps idna hard other t u) :
    Steps idna hard other s u := by
  induction h' with
  | refl => exact h
  | step _ h2 ih => exact .step ih h2

theorem play_steps (idna : Idna) (hard : Bytes) {other : World → World → Prop} {ts : List Turn}
    (ht : ∀ f w, .net f ∈ ts → other w { w with net := f }) (s : World × List Process) :
    Steps idna hard other s (play idna hard ts s) := by
  induction ts generalizing s with
  | nil => exact .refl _
  | cons t ts ih =>
    exact Steps.trans (turn_steps idna hard (fun f w h => ht f w (by simp [h])) s) (ih (fun f w h => ht f w (by simp [h])) _)

/-- The suffixes that the processes that have finished without error give for a URL. -/
def results (s : World × List Process) (url : Bytes) : List (Option Bytes) :=
  s.2.map fun p => match p.prog with
    | .ret (x, none) => (suffixOf x url).map (·.1)
    | _ => none

/-- Two processes start without a cache file; the first stops in the middle of writing, the second writes everything and
finishes; a third starts, uses the file, and finishes; then the first goes on and finishes; the fourth dies. -/
def fourProcesses : List Turn :=
  [.start (.new ⟨[], false⟩), .start (.new ⟨[], false⟩)] ++ List.replicate 13 (.call 0) ++ [.piece 0 40] ++
  List.replicate 16 (.call 1) ++ [.start (.new ⟨[], true⟩)] ++ List.replicate 20 (.call 2) ++ [.start (.new ⟨[], false⟩)] ++
  [.call 3, .call 3, .die 3] ++ List.replicate 5 (.call 0)

/-- The world and the processes after the first `n` turns. -/
def after (n : Nat) : World × List Process := play idId builtin (fourProcesses.take n) (exWorld none, [])

/-- The default cache file. -/
def cached (s : World × List Process) : Option Bytes := s.1.read (b! "/tmp/public_suffix_list.dat")

/-- In this example the first process has not finished its write when the second and the third finish. -/
example :
    cached (after 16) = some (listB.take 40) ∧
    results (after 53) (b! "q.b.org") =
      [none, some (b! "org"), some (b! "b.org")] ∧ cached (after 53) = some listB ∧
    results (after 61) (b! "q.b.org") = [some (b! "org"), some (b! "org"),
      some (b! "b.org")] ∧ cached (after 61) = some listB := by
  decide +kernel

theorem wellTerminated_listB : WellTerminated listB :=
  ⟨listB.take 100, b! "\n", by decide +kernel, by decide, by decide +kernel⟩

/-- The theorem applies to every moment of it. -/
example (n : Nat) : (∀ c, contentAt (after n).1 ((after n).1.loc (defaultPath (after n).1)) = some (some c) → c <+: listB) ∧
    ∀ job off x err, ⟨job, .ret (x, err), off⟩ ∈ (after n).2 → Finishes idId builtin listB (after n).1 job x err := by
  refine C59_shared idId builtin wellTerminated_listB (w₀ := exWorld none) (fun p q h => by simp [exWorld] at h; rw [h])
    (stripped_iff.2 (by decide +kernel)) ?_ ?_ (play_steps idId builtin (fun f w h => ?_) _)
  · rintro url b ⟨h, -⟩
    simp only [exWorld] at h
    split at h
    · simp at h; exact h.symm
    · simp at h
  · intro c hc
    rw [show contentAt (exWorld none) ((exWorld none).loc (defaultPath (exWorld none))) = none by decide +kernel] at hc
    cases hc
  · simpa [fourProcesses] using List.mem_of_mem_take h

/-- The second source has this list. -/
def offering (l : Bytes) (u : Bytes) : Response :=
  if u = b! "https://raw.githubusercontent.com/publicsuffix/list/master/public_suffix_list.dat" then .status 200 l true else .failed

/-- A process downloads list A; while it writes it, list B comes out, and a second process downloads and writes it. -/
def twoLists : List Turn :=
  [.net (offering listA), .start (.new ⟨[], true⟩)] ++ List.replicate 13 (.call 0) ++ [.piece 0 37] ++
  [.net (offering listB), .start (.new ⟨[], true⟩)] ++ List.replicate 16 (.call 1) ++ List.replicate 5 (.call 0) ++
  [.start (.new ⟨[], true⟩)] ++ List.replicate 20 (.call 2)

/-- C59 needs one list: if the list changes between two downloads, then without any crash, error or interruption the
cache file may come to hold the beginning of one list and the end of the other, with all section markers, and New
returns rules of both.  (`a.com` is only in list A, `org` only in list B.) -/
theorem C59_counterexample :
    Steps idId builtin NetChanges (exWorld none, []) (play idId builtin twoLists (exWorld none, [])) ∧
    (let s := play idId builtin twoLists (exWorld none, [])
     cached s = some (listB.take 37 ++ listA.drop 37) ∧ HasMarkers (listB.take 37 ++ listA.drop 37) ∧
     results s (b! "q.org") = [some (b! "org"), some (b! "org"), some (b! "org")] ∧
     results s (b! "q.a.com") = [some (b! "a.com"), some (b! "com"), some (b! "a.com")]) := by
  refine ⟨play_steps idId builtin (fun f w _ => ⟨f, rfl⟩) _, ?_⟩
  decide +kernel


end Fasttld.Props
