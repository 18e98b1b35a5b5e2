import Verif.Proofs.Behaviour
import Verif.Props.System

/-!
# C60: what New and Update do, exactly; C37, C40, C42, C43 made exact
-/

set_option linter.unusedSimpArgs false

namespace Fasttld.Props
open Fasttld Fasttld.Spec

/-! ## C60 -/

/-- C60: in every world Update does what the specification says, and that is only one thing. -/
theorem C60_update (idna : Idna) (hard : Bytes) (f : FastTLD) (w : World) {f' err w' evs}
    (h : (f.update idna hard).exec w = ((f', err), w', evs)) :
    UpdateDoes idna f w f' err (evs.filterMap urlOf) w' ∧
    ∀ {f'' err'' asked w''}, UpdateDoes idna f w f'' err'' asked w'' →
      f'' = f' ∧ err'' = err ∧ asked = evs.filterMap urlOf ∧ SameFiles w' w'' := by
  have hd := exec_updateDoes idna hard f w h
  refine ⟨hd, fun h' => ?_⟩
  obtain ⟨h1, h2, h3, h4⟩ := updateDoes_unique rfl rfl hd h'
  exact ⟨(h1 (.inl rfl)).symm, h2.symm, h3.symm, h4⟩

/-- C60: in every world New does what the specification says, and that is only one thing. -/
theorem C60_new (idna : Idna) (hard : Bytes) (n : SuffixListParams) (w : World) {x err w' evs}
    (h : (new idna hard n).exec w = ((x, err), w', evs)) :
    err = none ∧ NewDoes idna hard n w x (evs.filterMap urlOf) w' ∧
    ∀ {x' asked w''}, NewDoes idna hard n w x' asked w'' → x' = x ∧ asked = evs.filterMap urlOf ∧ SameFiles w' w'' := by
  obtain ⟨h1, hd⟩ := exec_newDoes idna hard n w h
  refine ⟨h1, hd, fun h' => ?_⟩
  obtain ⟨h1, h2, h3⟩ := newDoes_unique hd h'
  exact ⟨h1.symm, h2.symm, h3⟩

/-- Both sources have a list; writing of list A, or of both, stops early. -/
def stopping (k : Option Nat) : World :=
  { exWorld none with
    net := fun u => if u = publicSuffixListSources[0] then .status 200 listA true else .status 200 listB true
    writeStops := fun b => if b = listA then some 10 else k }

/-- List A stops after 10 bytes, list B is written over it.  If list B stops too, there is an error, and the beginnings
remain; the extractor is as before. -/
example :
    let f : FastTLD := ⟨b! "/tmp/public_suffix_list.dat", .node false [], true⟩
    let r := (f.update idId builtin).exec (stopping none)
    let s := (f.update idId builtin).exec (stopping (some 5))
    r.1.2 = none ∧ suffixOf r.1.1 (b! "q.b.org") = some (b! "b.org", none) ∧ r.2.2.filterMap urlOf = publicSuffixListSources ∧
    r.2.1.read (b! "/tmp/public_suffix_list.dat") = some listB ∧
    s.1.2 = some .allMirrors ∧ suffixOf s.1.1 (b! "q.b.org") = some ([], none) ∧ s.2.2.filterMap urlOf = publicSuffixListSources ∧
    s.2.1.read (b! "/tmp/public_suffix_list.dat") = some (listB.take 5 ++ (listA.take 10).drop 5) := by
  decide +kernel

/-! ## C42 -/

/-- C42 with the exact condition: New without a usable custom list asks the network iff the default cache file is unusable
or older than 72 hours, and the temporary folder and the default cache file can be opened. -/
theorem C42_exact (idna : Idna) (hard : Bytes) (n : SuffixListParams) (w : World)
    (hcustom : ∀ c t, ¬ Usable w n.cacheFilePath c t) :
    (∃ e ∈ ((new idna hard n).exec w).2.2, IsNetwork e) ↔
      (¬ ∃ c t, Usable w (defaultPath w) c t ∧ w.clock - t ≤ threeDays) ∧ w.canOpenDir w.tmp = true ∧ ∃ g, Opens w g := by
  rcases hx : (new idna hard n).exec w with ⟨⟨x, err⟩, w', evs⟩
  obtain ⟨-, hd, -⟩ := C60_new idna hard n w hx
  have hnet : (∃ e ∈ evs, IsNetwork e) ↔ evs.filterMap urlOf ≠ [] := by
    rw [Ne, List.filterMap_eq_nil_iff]
    constructor
    · rintro ⟨e, he, hn⟩ h
      have := h e he
      cases e <;> simp_all [IsNetwork, urlOf]
    · intro h
      refine Classical.byContradiction fun h' => h fun e he => ?_
      cases e with
      | httpGet u r => exact absurd ⟨_, he, trivial⟩ h'
      | _ => rfl
  show (∃ e ∈ evs, IsNetwork e) ↔ _
  rw [hnet]
  have asks : ∀ {g g' asked ok}, Refreshed w publicSuffixListSources g g' asked ok → asked ≠ [] := by
    intro g g' asked ok h
    unfold publicSuffixListSources at h
    cases h <;> simp
  have upd : ∀ {f x err asked w'}, f.cacheFilePath = defaultPath w → UpdateDoes idna f w x err asked w' →
      (asked ≠ [] ↔ ∃ g, Opens w g) := by
    intro f x err asked w' hp hu
    cases hu with
    | otherFile h => exact absurd hp h
    | cannotOpen _ ho => exact ⟨fun h => absurd rfl h, fun ⟨g, hg⟩ => absurd hg (ho g)⟩
    | noList _ ho hr => exact ⟨fun _ => ⟨_, ho⟩, fun _ => asks hr⟩
    | cannotRead _ ho hr => exact ⟨fun _ => ⟨_, ho⟩, fun _ => asks hr⟩
    | done _ ho hr => exact ⟨fun _ => ⟨_, ho⟩, fun _ => asks hr⟩
  generalize evs.filterMap urlOf = asked at hd
  cases hd with
  | custom h => exact absurd h (hcustom _ _)
  | noFolder _ hd => simp [hd]
  | fresh _ _ hf => exact ⟨fun h => absurd rfl h, fun h => absurd hf h.1⟩
  | updated _ hd hf hp _ hu => exact (upd hp hu).trans ⟨fun h => ⟨hf, hd, h⟩, fun h => h.2.2⟩
  | notUpdated _ hd hf hp _ hu => exact (upd hp hu).trans ⟨fun h => ⟨hf, hd, h⟩, fun h => h.2.2⟩

/-- The three conditions, one at a time. -/
example :
    (¬ ∃ c t, Usable (exWorld none) (defaultPath (exWorld none)) c t ∧ (exWorld none).clock - t ≤ threeDays) ∧
    ((new idId builtin ⟨[], false⟩).exec (exWorld none)).2.2.filterMap urlOf = publicSuffixListSources ∧
    ((new idId builtin ⟨[], false⟩).exec { exWorld none with canOpenDir := fun _ => false }).2.2.filterMap urlOf = [] ∧
    ((new idId builtin ⟨[], false⟩).exec { exWorld none with canCreate := fun _ => false }).2.2.filterMap urlOf = [] := by
  refine ⟨?_, by decide +kernel⟩
  rintro ⟨c, t, ⟨s, q, f, h1, h2, h3, -⟩, -⟩
  rw [stripped_iff] at h1
  subst h1
  have h2 : some (trimSpace (defaultPath (exWorld none))) = some q := h2
  cases h2
  rw [show (exWorld none).nodes ((exWorld none).loc (trimSpace (defaultPath (exWorld none)))) = none by decide +kernel] at h3
  cases h3

/-! ## C40 -/

/-- C40 with the exact condition: without write errors a successful Update leaves the first offered list in the cache file,
followed by what was behind it in the old file, and uses the rules of all that.  So the cache file equals the list iff
the old one was not longer. -/
theorem C40_exact (idna : Idna) (hard : Bytes) (f : FastTLD) (w : World) {url body : Bytes}
    (hs : w.seekWorks = true) (hw : ∀ b, w.writeStops b = none) (hf : FirstOffer w publicSuffixListSources url body)
    {f' w' evs} (h : (f.update idna hard).exec w = ((f', none), w', evs)) :
    ∃ g, Opens w g ∧ w'.read (defaultPath w) = some (body ++ g.content.drop body.length) ∧
      Serves idna f' (body ++ g.content.drop body.length) ∧
      (w'.read (defaultPath w) = some body ↔ g.content.length ≤ body.length) := by
  obtain ⟨hd, -⟩ := C60_update idna hard f w h
  generalize evs.filterMap urlOf = asked at hd
  cases hd with
  | @done hp g g' _ ho hr hrd _ hc _ h1 h2 h3 =>
    have key : ∀ {sources g g' asked}, FirstOffer w sources url body → Refreshed w sources g g' asked true →
        g' = overwritten w g body := by
      intro sources g g' asked hf hr
      obtain ⟨pre, post, rfl, hno, hoff⟩ := hf
      revert hno hr
      induction pre generalizing asked with
      | nil =>
        intro hr hno
        cases hr with
        | skipped hsk => exact absurd ⟨hoff, hs⟩ (not_skipped hsk)
        | stopped _ _ hst => rw [hw] at hst; cases hst
        | written ho' => rw [offers_unique hoff ho']
      | cons v pre ih =>
        intro hr hno
        cases hr with
        | skipped _ hr => exact ih hr (fun u hu => hno u (by simp [hu]))
        | stopped _ _ hst => rw [hw] at hst; cases hst
        | written ho' => exact absurd ho' (hno v (by simp) _)
    have hg := key hf hr
    subst hg
    have hread : w'.read (defaultPath w) = some (body ++ g.content.drop body.length) := by
      rw [World.read, hc.2.2.1, hc.1]
      simp only [hrd, if_true]
      rfl
    refine ⟨g, ho, hread, h1, ?_⟩
    rw [hread, Option.some.injEq]
    constructor
    · intro he
      have := congrArg List.length he
      simp at this
      omega
    · intro hl
      rw [List.drop_eq_nil_of_le hl, List.append_nil]

/-- A shorter list over a longer one, and a longer one over a shorter one. -/
example :
    ((((⟨b! "/tmp/public_suffix_list.dat", .node false [], false⟩ : FastTLD).update idId builtin).exec
      (exWorld (some (.file ⟨listA, 0, true, true⟩)))).2.1.read (b! "/tmp/public_suffix_list.dat")
        = some (listB ++ listA.drop listB.length)) ∧
    listB ++ listA.drop listB.length ≠ listB ∧
    ((((⟨b! "/tmp/public_suffix_list.dat", .node false [], false⟩ : FastTLD).update idId builtin).exec
      (exWorld (some (.file ⟨b! "short", 0, true, true⟩)))).2.1.read (b! "/tmp/public_suffix_list.dat") = some listB) := by
  decide +kernel

/-! ## C37 -/

/-- C37 with the exact condition: for a path other than that of the default cache file, New uses the file it names iff
the path without white space around it leads to a readable regular file with the section markers, and the path as
given leads to a readable file. -/
theorem C37_exact (idna : Idna) (hard : Bytes) (n : SuffixListParams) (w : World) {x err w' evs}
    (h : (new idna hard n).exec w = ((x, err), w', evs)) (hne : n.cacheFilePath ≠ []) (hnd : n.cacheFilePath ≠ defaultPath w) :
    (x.cacheFilePath = n.cacheFilePath ↔
      (∃ c t, Usable w n.cacheFilePath c t) ∧ ∃ c, w.read n.cacheFilePath = some c) ∧
    (x.cacheFilePath = n.cacheFilePath → (∃ c, w.read n.cacheFilePath = some c ∧ Serves idna x c) ∧
      evs.filterMap urlOf = [] ∧ SameFiles w w') := by
  obtain ⟨-, hd, -⟩ := C60_new idna hard n w h
  generalize evs.filterMap urlOf = asked at hd
  have hb : BuiltIn idna hard n x → ¬ x.cacheFilePath = n.cacheFilePath := fun hb he => hne (he.symm.trans hb.2.1)
  have hnu : (∀ c t, ¬ Usable w n.cacheFilePath c t) → ¬ x.cacheFilePath = n.cacheFilePath →
      (x.cacheFilePath = n.cacheFilePath ↔ (∃ c t, Usable w n.cacheFilePath c t) ∧ ∃ c, w.read n.cacheFilePath = some c) ∧
      (x.cacheFilePath = n.cacheFilePath → (∃ c, w.read n.cacheFilePath = some c ∧ Serves idna x c) ∧
        asked = [] ∧ SameFiles w w') :=
    fun h1 h2 => ⟨⟨fun h => absurd h h2, fun ⟨⟨c, t, hu⟩, _⟩ => absurd hu (h1 c t)⟩, fun h => absurd h h2⟩
  cases hd with
  | custom hu hx hw =>
    rcases hx with ⟨-, c, hc, h1, h2, h3⟩ | ⟨hp, hx⟩
    · exact ⟨⟨fun _ => ⟨⟨_, _, hu⟩, c, hc⟩, fun _ => h2⟩, fun _ => ⟨⟨c, hc, h1⟩, rfl, hw⟩⟩
    · rcases hp with hp | hp
      · exact absurd hp hne
      · refine ⟨⟨fun h => absurd h (hb hx), fun ⟨_, c, hc⟩ => ?_⟩, fun h => absurd h (hb hx)⟩
        rw [hp] at hc; cases hc
  | noFolder h _ hx => exact hnu h (hb hx)
  | fresh h _ _ hx =>
    rcases hx with ⟨-, c, hc, h1, h2, h3⟩ | ⟨hp, hx⟩
    · exact hnu h fun he => hnd (he.symm.trans h2)
    · exact hnu h (hb hx)
  | updated h _ _ hp _ hu =>
    cases hu with
    | done _ _ _ _ _ _ h2 _ => exact hnu h fun he => hnd (he.symm.trans (h2.trans hp))
  | notUpdated h _ _ _ _ _ hx => exact hnu h (hb hx)

/-- Both sides occur: `/x` is used; ` /x` is checked as `/x` but cannot be read; ` /y` can be read but is checked as `/y`. -/
example :
    ((new idId builtin ⟨b! "/x", false⟩).exec (exWorld none)).1.1.cacheFilePath = b! "/x" ∧
    (exWorld none).read (b! " /x") = none ∧ ((new idId builtin ⟨b! " /x", false⟩).exec (exWorld none)).1.1.cacheFilePath = [] ∧
    (exWorld none).read (b! "/y") = none ∧
    ((new idId builtin ⟨b! " /y", false⟩).exec (exWorld none)).1.1.cacheFilePath = defaultPath (exWorld none) := by
  decide +kernel

/-! ## C43 -/

/-- C43 with exactly the possible contents: if one source offers a list and Update can open the cache file and go to its
beginning, then a crash can leave the old contents with any beginning of the list over them. -/
theorem C43_possible (idna : Idna) (hard : Bytes) (f : FastTLD) (w : World) {url body : Bytes} {g : WFile}
    (hp : f.cacheFilePath = defaultPath w) (ho : Opens w g) (hs : w.seekWorks = true)
    (hf : FirstOffer w publicSuffixListSources url body) (k : Nat) :
    ∃ w', Crash (f.update idna hard) w w' ∧ CacheIs w w' (overwritten w g (body.take k)) := by
  exact crash_possible idna hard f w hp ho hs hf k

example : ∃ w', Crash ((⟨b! "/tmp/public_suffix_list.dat", .node false [], false⟩ : FastTLD).update idId builtin)
      (exWorld (some (.file ⟨listA, 0, true, true⟩))) w' ∧
    w'.read (b! "/tmp/public_suffix_list.dat") = some (listB.take 40 ++ listA.drop 40) := by
  obtain ⟨w', h1, h2⟩ := C43_possible idId builtin ⟨b! "/tmp/public_suffix_list.dat", .node false [], false⟩
    (exWorld (some (.file ⟨listA, 0, true, true⟩))) (url := publicSuffixListSources[1]) (body := listB) (g := ⟨listA, 0, true, true⟩)
    (by decide +kernel) (.old (by decide +kernel) rfl) rfl
    ⟨[publicSuffixListSources[0]], [], rfl, by
      refine ⟨fun v hv b hb => ?_, by decide +kernel, by decide +kernel⟩
      rw [List.mem_singleton.1 hv] at hb
      have := hb.1
      rw [show (exWorld (some (.file ⟨listA, 0, true, true⟩))).net publicSuffixListSources[0] = .failed by decide +kernel] at this
      cases this⟩ 40
  refine ⟨w', h1, ?_⟩
  obtain ⟨h3, -, h4, -⟩ := h2
  rw [World.read, h4]
  rw [show (exWorld (some (.file ⟨listA, 0, true, true⟩))).loc (b! "/tmp/public_suffix_list.dat") =
    (exWorld (some (.file ⟨listA, 0, true, true⟩))).loc (defaultPath (exWorld (some (.file ⟨listA, 0, true, true⟩)))) by decide +kernel, h3]
  decide +kernel

end Fasttld.Props
