import Verif.Proofs.SourceProcesses
import Verif.Props.Shared
import Verif.Props.SourceSys

/-!
# C88: processes that share the cache file, and crashes, by the text

Any number of processes run the text of New and of Update (Model/Source.lean), each in a memory of its own, and take turns; one
step is one access to memory, one call to the operating system or one effect; a write may be done in pieces; any of them may die
at any time (Model/GoShared.lean).  What C59 says about the cache file and the extractors then holds for the text, no process
gets stuck or panics, and every schedule of the model is one of the text, with the counterexample to C59 for two lists.  The same
for C43: a crash of Update.
-/

namespace Fasttld.Props
open Fasttld Fasttld.GoLang Fasttld.Spec

/-! ## What is stated -/

/-- What is read fits. -/
def ReadFits (w : Nat) (idna : Idna) (e : Event) : Prop := ∀ p text, e = .readFile p (some text) → ListFits w idna text

/-- What a process may be started with: New with the parameters of its job, or Update of a structure that is the extractor of its
job; and there are addresses left. -/
def Begins : Shared.Job → ProcText → Mem → Prop
  | .new n, .new n', m => n' = n ∧ ∃ N, ∀ r, N ≤ r → m.nodes r = none
  | .update f, .update O i, m => (∃ o, O[i]? = some o ∧ IsValue m o f) ∧ ∃ N, ∀ r, N ≤ r → m.nodes r = none
  | _, _, _ => False

/-- What the text has returned is, in memory, the extractor `x` and the error `err`. -/
def Ended (text : ProcText) (m₀ m : Mem) (v : Comp (Val × Local)) (x : FastTLD) (err : Option SysErr) : Prop :=
  ∃ t : Option TextErr, t.map Prod.fst = err ∧
    match text with
    | .new _ => Returns m₀ (x, t) v m
    | .update O i => Updates m₀ i O (x, t) v m

section
variable {w : Nat} (hw : 32 ≤ w) {round : Rat → Rat} (hr : Spec.IsRounding round) (idna : Idna) (texts : Lib) (isPrint : Nat → Bool)
include hw

omit hw in
theorem fuel_split {w k fuel : Nat} (h : 2 ^ (w - 1) + k ≤ fuel) : ∃ f, fuel = f + k ∧ 2 ^ (w - 1) ≤ f :=
  ⟨fuel - k, (Nat.sub_add_cancel (Nat.le_trans (Nat.le_add_left _ _) h)).symm, Nat.le_of_add_le_add_right (b := k)
    (by rw [Nat.sub_add_cancel (Nat.le_trans (Nat.le_add_left _ _) h)]; exact h)⟩

theorem update_acts {fuel : Nat} (hf : 2 ^ (w - 1) + 6 ≤ fuel) (hhard : ListFits w idna texts.hardcodedPSL) (O : List Obj) (i : Nat) (o : Obj)
    (ho : O[i]? = some o) (x : FastTLD) (m : Mem) (hx : IsValue m o x) :
    Acts (ReadFits w idna) (fun m' v r => Ended (.update O i) m m' v r.1 r.2) m
      (callSys round (sourceCtx w idna texts isPrint) fuel .Update [.obj i] ⟨[], O, []⟩) (x.update idna texts.hardcodedPSL) := by
  rw [sourceCtx_eq (big_of hw) (two31_le hw)]
  obtain ⟨f, rfl, hf'⟩ := fuel_split (w := w) (k := 5) (by omega : 2 ^ (w - 1) + 5 ≤ fuel)
  have I := impl_Update (isPrint := isPrint) (round := round) f (big_of hw) (sixty_five_lt hw) m [] O [] i o x ho ⟨hx.1, hx.2.1, hx.2.2⟩
    (short_of idna hf' hhard) (fits_event idna hf')
  refine (acts_of (fits := ReadFits w idna) (fun e t he p text t' h => ?_) I (forgets_update idna _ _ x)).mono ?_
  · cases h; exact he p text rfl
  · rintro m' v _ ⟨r, ⟨A, o, h1, h3, h4, h5⟩, rfl⟩
    exact ⟨r.2, rfl, A, o, h1, ⟨h3.path, h3.incl, h3.trie⟩, h4, h5⟩

include hr

theorem new_acts {fuel : Nat} (hf : 2 ^ (w - 1) + 6 ≤ fuel) (hhard : ListFits w idna texts.hardcodedPSL) (n : SuffixListParams) (m : Mem) :
    Acts (ReadFits w idna) (fun m' v r => Ended (.new n) m m' v r.1 r.2) m
      (callSys round (sourceCtx w idna texts isPrint) fuel .New [.listParams n] ⟨[], [], []⟩) (new idna texts.hardcodedPSL n) := by
  rw [sourceCtx_eq (big_of hw) (two31_le hw)]
  obtain ⟨f, rfl, hf'⟩ := fuel_split hf
  have I := impl_New (isPrint := isPrint) f (big_of hw) (sixty_five_lt hw) hr n m [] [] [] (short_of idna hf' hhard) (fits_event idna hf')
  refine (acts_of (fits := ReadFits w idna) (fun e t he p text t' h => ?_) I (forgets_new idna _ _ n)).mono ?_
  · cases h; exact he p text rfl
  · rintro m' v _ ⟨r, ⟨i, A, O, o, h1, h2, h3, h4, h5, -⟩, rfl⟩
    exact ⟨r.2, rfl, i, A, O, o, h1, h2, ⟨h3.path, h3.incl, h3.trie⟩, h4, h5⟩

theorem begins_acts {fuel : Nat} (hf : 2 ^ (w - 1) + 6 ≤ fuel) (hhard : ListFits w idna texts.hardcodedPSL) (job : Shared.Job) (text : ProcText)
    (m : Mem) (h : Begins job text m) : Free m ∧ Acts (ReadFits w idna) (fun m' v r => Ended text m m' v r.1 r.2) m
      (text.prog round (sourceCtx w idna texts isPrint) fuel) (job.prog idna texts.hardcodedPSL) := by
  cases job with
  | new n =>
    cases text with
    | new n' =>
      obtain ⟨rfl, h⟩ := h
      exact ⟨h, new_acts hw hr idna texts isPrint hf hhard n' m⟩
    | update => exact h.elim
  | update f =>
    cases text with
    | new n' => exact h.elim
    | update O i =>
      obtain ⟨⟨o, ho, hx⟩, h⟩ := h
      exact ⟨h, update_acts hw idna texts isPrint hf hhard O i o ho f m hx⟩

/-- C88: what C59 says holds for the text: the cache file always holds a beginning of the list, and every process that has
finished has returned, in its memory, what it should. -/
theorem C88_shared (hhard : ListFits w idna texts.hardcodedPSL) : ∃ N, ∀ fuel, N ≤ fuel →
    ∀ {body : Bytes} {w₀ w' : World} {ts : List Proc}, WellTerminated body → Coherent w₀ → Stripped (defaultPath w₀) (defaultPath w₀) →
    OnlyOffers w₀ body → (∀ c, contentAt w₀ (w₀.loc (defaultPath w₀)) = some (some c) → c <+: body) →
    ProcSteps round (sourceCtx w idna texts isPrint) fuel Begins (ReadFits w idna) (Undisturbed body) (w₀, []) (w', ts) →
    (∀ c, contentAt w' (w'.loc (defaultPath w')) = some (some c) → c <+: body) ∧
    ∀ p ∈ ts, ∀ v, p.prog = .ret v → ∃ x err, Ended p.text p.begin p.mem v x err ∧ Finishes idna texts.hardcodedPSL body w' p.job x err := by
  refine ⟨2 ^ (w - 1) + 6, fun fuel hf body w₀ w' ts hb hco hst ho hc h => ?_⟩
  obtain ⟨ps, h1, h2⟩ := procSteps_same (ends := fun text m m' v r => Ended text m m' v r.1 r.2)
    (begins_acts hw hr idna texts isPrint hf hhard) (fun _ _ _ _ _ he => nomatch he) h (List.Forall₂.nil)
  obtain ⟨h3, h4⟩ := C59_shared idna texts.hardcodedPSL hb hco hst ho hc h1
  refine ⟨h3, fun p hp v hv => ?_⟩
  obtain ⟨a, b, rfl⟩ := List.append_of_mem hp
  obtain ⟨a', ⟨job', q, off⟩, b', rfl, -, ⟨hj, -, -, hacts⟩, -⟩ := forall₂_mid h2
  rw [hv] at hacts
  cases hacts with
  | ret hE =>
    rename_i r
    exact ⟨r.1, r.2, hE, hj ▸ h4 _ _ _ _ (List.mem_append_right _ (List.mem_cons_self ..))⟩

/-- C88: and the contents of the cache file only ever get longer. -/
theorem C88_grows (hhard : ListFits w idna texts.hardcodedPSL) : ∃ N, ∀ fuel, N ≤ fuel →
    ∀ {body : Bytes} {w₀ w₁ w₂ : World} {ts₁ ts₂ : List Proc}, WellTerminated body → Coherent w₀ → Stripped (defaultPath w₀) (defaultPath w₀) →
    OnlyOffers w₀ body → (∀ c, contentAt w₀ (w₀.loc (defaultPath w₀)) = some (some c) → c <+: body) →
    ProcSteps round (sourceCtx w idna texts isPrint) fuel Begins (ReadFits w idna) (Undisturbed body) (w₀, []) (w₁, ts₁) →
    ProcSteps round (sourceCtx w idna texts isPrint) fuel Begins (ReadFits w idna) (Undisturbed body) (w₁, ts₁) (w₂, ts₂) →
    ∀ c, contentAt w₁ (w₁.loc (defaultPath w₁)) = some (some c) → ∃ c', contentAt w₂ (w₂.loc (defaultPath w₂)) = some (some c') ∧ c <+: c' := by
  refine ⟨2 ^ (w - 1) + 6, fun fuel hf body w₀ w₁ w₂ ts₁ ts₂ hb hco hst ho hc h h' c hc' => ?_⟩
  obtain ⟨ps, h1, h2⟩ := procSteps_same (ends := fun text m m' v r => Ended text m m' v r.1 r.2)
    (begins_acts hw hr idna texts isPrint hf hhard) (fun _ _ _ _ _ he => nomatch he) h (List.Forall₂.nil)
  obtain ⟨ps', h3, -⟩ := procSteps_same (begins_acts hw hr idna texts isPrint hf hhard) (fun _ _ _ _ _ he => nomatch he) h' h2
  exact C59_grows idna texts.hardcodedPSL hb hco hst ho hc h1 h3 hc'

/-- C88: whatever else happens to the world, no process panics or accesses memory that is not there: it has returned, or its next
step is possible. -/
theorem C88_goes_on (hhard : ListFits w idna texts.hardcodedPSL) : ∃ N, ∀ fuel, N ≤ fuel →
    ∀ {other : World → World → Prop} {w₀ w' : World} {ts : List Proc},
    ProcSteps round (sourceCtx w idna texts isPrint) fuel Begins (ReadFits w idna) other (w₀, []) (w', ts) → ∀ p ∈ ts,
    (∃ r, p.prog = .ret (.ok r)) ∨ (∃ (β : Type) (o : Op β) (k : _), p.prog = .sys o k) ∨ (∃ e k, p.prog = .effect e k) ∨
      ∃ (β : Type) (o : MOp β) (k : _), p.prog = .mem o k ∧ ∃ b m, o.Does p.mem b m := by
  refine ⟨2 ^ (w - 1) + 6, fun fuel hf other w₀ w' ts h p hp => ?_⟩
  obtain ⟨ps, -, h2⟩ := procSteps_same (ends := fun text m m' v r => Ended text m m' v r.1 r.2)
    (begins_acts hw hr idna texts isPrint hf hhard) (fun _ _ _ _ _ he => nomatch he) h (List.Forall₂.nil)
  obtain ⟨a, b, rfl⟩ := List.append_of_mem hp
  obtain ⟨a', ⟨job', q, off⟩, b', rfl, -, ⟨-, -, hfree, hacts⟩, -⟩ := forall₂_mid h2
  obtain ⟨job, text, m₀, prog, m, off'⟩ := p
  dsimp only at hacts hfree ⊢
  cases hacts with
  | ret hE =>
    refine .inl ?_
    cases text with
    | new n => obtain ⟨t, -, i, A, O, o, rfl, -⟩ := hE; exact ⟨_, rfl⟩
    | update O i => obtain ⟨t, -, A, o, rfl, -⟩ := hE; exact ⟨_, rfl⟩
  | sys => exact .inr (.inl ⟨_, _, _, rfl⟩)
  | effect => exact .inr (.inr (.inl ⟨_, _, rfl⟩))
  | mem can _ => exact .inr (.inr (.inr ⟨_, _, _, rfl, can hfree⟩))

end

/-! ## Every schedule is possible -/

/-- The call that is made in a turn, with its answer. -/
def turnEvent : Turn → World × List Shared.Process → Option Event
  | .call i, s => match s.2.drop i with
    | ⟨_, .call o _, off⟩ :: _ => some (o.event (o.answer (Shared.seenBy s.1 off)).1)
    | _ => none
  | _, _ => none

/-- What the processes read under a schedule fits. -/
def PlayFits (fits : Event → Prop) (idna : Idna) (hard : Bytes) : List Turn → World × List Shared.Process → Prop
  | [], _ => True
  | t :: ts, s => (∀ e, turnEvent t s = some e → fits e) ∧ PlayFits fits idna hard ts (turn idna hard t s)

/-- The process of the text has got as far as that of the model: if that has finished, so has this. -/
def AsFar (t : Proc) (p : Shared.Process) : Prop :=
  t.job = p.job ∧ t.offset = p.offset ∧ ∀ x err, p.prog = .ret (x, err) → ∃ v, t.prog = .ret v ∧ Ended t.text t.begin t.mem v x err

theorem turn_text {round : Rat → Rat} {c : Ctx} {fuel : Nat} {begins : Shared.Job → ProcText → Mem → Prop} {fits : Event → Prop}
    {other : World → World → Prop} {idna : Idna} {hard : Bytes}
    {ends : ProcText → Mem → Mem → Comp (Val × Local) → FastTLD × Option SysErr → Prop}
    (hstart : ∀ job text m, begins job text m → Free m ∧ Acts fits (ends text m) m (text.prog round c fuel) (job.prog idna hard))
    (hwrite : ∀ h body b, fits (.write h body b)) (t : Turn) (ts : List Turn)
    (hnet : ∀ f w, t = .net f → other w { w with net := f }) (hjob : ∀ job, t = .start job → ∃ text m, begins job text m)
    (w : World) (xs : List Proc) (ps : List Shared.Process) (hs : List.Forall₂ (SameProcess fits ends) xs ps)
    (hfit : PlayFits fits idna hard (t :: ts) (w, ps)) :
    ∃ xs', ProcSteps round c fuel begins fits other (w, xs) ((turn idna hard t (w, ps)).1, xs') ∧
      List.Forall₂ (SameProcess fits ends) xs' (turn idna hard t (w, ps)).2 := by
  have back : ∀ {a : List Shared.Process} {y b}, ps = a ++ y :: b → ∃ a' x b', xs = a' ++ x :: b' ∧ List.Forall₂ (SameProcess fits ends) a' a ∧
      SameProcess fits ends x y ∧ List.Forall₂ (SameProcess fits ends) b' b := by
    intro a y b e
    obtain ⟨a', x, b', h1, h2, h3, h4⟩ := forall₂_mid (R := fun p t => SameProcess fits ends t p) (e ▸ hs.flip)
    exact ⟨a', x, b', h1, h2.flip, h3, h4.flip⟩
  cases t with
  | start job =>
    obtain ⟨text, m, hb⟩ := hjob job rfl
    obtain ⟨h1, h2⟩ := hstart _ _ _ hb
    exact ⟨_, .step (.refl _) (.start job text m hb), forall₂_join hs (.cons ⟨rfl, rfl, h1, h2⟩ .nil)⟩
  | net f => exact ⟨_, .step (.refl _) (.other (hnet f w rfl)), hs⟩
  | die i =>
    show ∃ xs', ProcSteps _ _ _ _ _ _ _ (w, xs') ∧ List.Forall₂ _ xs' (ps.take i ++ ps.drop (i + 1))
    by_cases hi : i < ps.length
    · have e : ps = ps.take i ++ ps[i] :: ps.drop (i + 1) := by
        rw [List.getElem_cons_drop, List.take_append_drop]
      obtain ⟨a', x, b', rfl, h1, -, h3⟩ := back e
      exact ⟨_, .step (.refl _) .die, forall₂_join h1 h3⟩
    · rw [List.take_of_length_le (by omega), List.drop_eq_nil_of_le (by omega), List.append_nil]
      exact ⟨_, .refl _, hs⟩
  | call i =>
    simp only [turn]
    split
    · rename_i job β o k off b hd
      have e : ps = ps.take i ++ ⟨job, .call o k, off⟩ :: b := by rw [← hd, List.take_append_drop]
      obtain ⟨a', ⟨job', text, m₀, prog, m, off'⟩, b', rfl, h1, ⟨rfl, rfl, hfree, hacts⟩, h3⟩ := back e
      dsimp only at hfree hacts ⊢
      obtain ⟨k', m', h4, h5, h6⟩ := acts_toCall (round := round) (c := c) (fuel := fuel) (begins := begins) (other := other) hacts rfl hfree w a' b' job' text m₀ off'
      have hf : fits (o.event (o.answer (Shared.seenBy w off')).1) := hfit.1 _ (by simp only [turnEvent, hd])
      exact ⟨_, .step h4 (.call [] rfl hf), forall₂_join h1 (.cons ⟨rfl, rfl, h5, h6 _ [] hf⟩ h3)⟩
    · exact ⟨_, .refl _, hs⟩
  | piece i n =>
    simp only [turn]
    split
    · rename_i job h body k off b hd
      have e : ps = ps.take i ++ ⟨job, .call (.write h body) k, off⟩ :: b := by rw [← hd, List.take_append_drop]
      obtain ⟨a', ⟨job', text, m₀, prog, m, off'⟩, b', rfl, h1, ⟨rfl, rfl, hfree, hacts⟩, h3⟩ := back e
      dsimp only at hfree hacts ⊢
      obtain ⟨k', m', h4, h5, h6⟩ := acts_toCall (round := round) (c := c) (fuel := fuel) (begins := begins) (other := other) hacts rfl hfree w a' b' job' text m₀ off'
      exact ⟨_, .step h4 (.piece n rfl), forall₂_join h1 (.cons ⟨rfl, rfl, h5, .sys fun b t _ => h6 b t (hwrite _ _ _)⟩ h3)⟩
    · exact ⟨_, .refl _, hs⟩

theorem play_text {round : Rat → Rat} {c : Ctx} {fuel : Nat} {begins : Shared.Job → ProcText → Mem → Prop} {fits : Event → Prop}
    {other : World → World → Prop} {idna : Idna} {hard : Bytes}
    {ends : ProcText → Mem → Mem → Comp (Val × Local) → FastTLD × Option SysErr → Prop}
    (hstart : ∀ job text m, begins job text m → Free m ∧ Acts fits (ends text m) m (text.prog round c fuel) (job.prog idna hard))
    (hwrite : ∀ h body b, fits (.write h body b)) (ts : List Turn)
    (hnet : ∀ f w, .net f ∈ ts → other w { w with net := f }) (hjob : ∀ job, .start job ∈ ts → ∃ text m, begins job text m)
    (s : World × List Shared.Process) (xs : List Proc) (hs : List.Forall₂ (SameProcess fits ends) xs s.2)
    (hfit : PlayFits fits idna hard ts s) :
    ∃ xs', ProcSteps round c fuel begins fits other (s.1, xs) ((play idna hard ts s).1, xs') ∧
      List.Forall₂ (SameProcess fits ends) xs' (play idna hard ts s).2 := by
  induction ts generalizing s xs with
  | nil => exact ⟨xs, .refl _, hs⟩
  | cons t ts ih =>
    obtain ⟨xs1, h1, h2⟩ := turn_text (round := round) (c := c) (fuel := fuel) (other := other) hstart hwrite t ts (fun f w e => hnet f w (by simp [e]))
      (fun job e => hjob job (by simp [e])) s.1 xs s.2 hs hfit
    obtain ⟨xs2, h3, h4⟩ := ih (fun f w e => hnet f w (by simp [e])) (fun job e => hjob job (by simp [e])) (turn idna hard t s) xs1 h2 hfit.2
    exact ⟨xs2, h1.trans h3, h4⟩

/-- Everybody who only has accesses to memory and effects left does them. -/
theorem all_toEnd {round : Rat → Rat} {c : Ctx} {fuel : Nat} {begins : Shared.Job → ProcText → Mem → Prop} {fits : Event → Prop}
    {other : World → World → Prop} (w : World) {xs : List Proc} {ps : List Shared.Process}
    (hs : List.Forall₂ (SameProcess fits fun text m m' v r => Ended text m m' v r.1 r.2) xs ps) (a : List Proc) :
    ∃ xs', ProcSteps round c fuel begins fits other (w, a ++ xs) (w, a ++ xs') ∧ List.Forall₂ AsFar xs' ps := by
  induction hs generalizing a with
  | nil => exact ⟨[], .refl _, .nil⟩
  | @cons x p xs ps h _ ih =>
    obtain ⟨job, text, m₀, prog, m, off⟩ := x
    obtain ⟨job', q, off'⟩ := p
    obtain ⟨rfl, rfl, hfree, hacts⟩ := h
    dsimp only at hfree hacts
    cases q with
    | ret r =>
      obtain ⟨v, m', h1, -, h2⟩ := acts_toEnd (round := round) (c := c) (fuel := fuel) (begins := begins) (other := other) hacts rfl hfree w a xs job text m₀ off
      obtain ⟨xs', h3, h4⟩ := ih (a ++ [⟨job, text, m₀, .ret v, m', off⟩])
      refine ⟨⟨job, text, m₀, .ret v, m', off⟩ :: xs', ?_, .cons ⟨rfl, rfl, ?_⟩ h4⟩
      · simp only [List.append_assoc, List.singleton_append] at h3
        exact h1.trans h3
      · intro x err hx
        cases hx
        exact ⟨v, rfl, h2⟩
    | call o k =>
      obtain ⟨xs', h3, h4⟩ := ih (a ++ [⟨job, text, m₀, prog, m, off⟩])
      refine ⟨⟨job, text, m₀, prog, m, off⟩ :: xs', ?_, .cons ⟨rfl, rfl, fun _ _ hx => nomatch hx⟩ h4⟩
      simp only [List.append_assoc, List.singleton_append] at h3
      exact h3

section
variable {w : Nat} (hw : 32 ≤ w) {round : Rat → Rat} (hr : Spec.IsRounding round) (idna : Idna) (texts : Lib) (isPrint : Nat → Bool)
include hw

/-- C88: the other way round, every schedule of processes of the model is possible with processes that run the text, which get
as far. -/
theorem C88_schedules (hr : Spec.IsRounding round) (hhard : ListFits w idna texts.hardcodedPSL) : ∃ N, ∀ fuel, N ≤ fuel →
    ∀ {other : World → World → Prop} (turns : List Turn) (w₀ : World),
    (∀ f w, .net f ∈ turns → other w { w with net := f }) → (∀ job, .start job ∈ turns → ∃ text m, Begins job text m) →
    PlayFits (ReadFits w idna) idna texts.hardcodedPSL turns (w₀, []) →
    ∃ ts, ProcSteps round (sourceCtx w idna texts isPrint) fuel Begins (ReadFits w idna) other (w₀, [])
        ((play idna texts.hardcodedPSL turns (w₀, [])).1, ts) ∧ List.Forall₂ AsFar ts (play idna texts.hardcodedPSL turns (w₀, [])).2 := by
  refine ⟨2 ^ (w - 1) + 6, fun fuel hf other turns w₀ hnet hjob hfit => ?_⟩
  obtain ⟨xs, h1, h2⟩ := play_text (c := sourceCtx w idna texts isPrint) (other := other) (ends := fun text m m' v r => Ended text m m' v r.1 r.2)
    (begins_acts hw hr idna texts isPrint hf hhard) (fun _ _ _ _ _ he => nomatch he) turns hnet hjob (w₀, []) [] .nil hfit
  obtain ⟨ts, h3, h4⟩ := all_toEnd (round := round) (c := sourceCtx w idna texts isPrint) (fuel := fuel) (begins := Begins) (other := other) _ h2 []
  exact ⟨ts, h1.trans h3, h4⟩

/-! ## Crashes -/

/-- C88: what C43 says holds for the text: wherever Update is interrupted, no file but the default cache file differs, and that
one holds what it held with beginnings of complete downloaded lists written over it. -/
theorem C88_crash_leaves (hhard : ListFits w idna texts.hardcodedPSL) (O : List Obj) (i : Nat) (o : Obj) (ho : O[i]? = some o) (x : FastTLD) :
    ∃ N, ∀ fuel, N ≤ fuel → ∀ m : Mem, IsValue m o x → ∀ w₀ w' : World,
      ProcCrash (ReadFits w idna) (callSys round (sourceCtx w idna texts isPrint) fuel .Update [.obj i] ⟨[], O, []⟩) m w₀ w' →
      (∀ j, j ≠ w₀.loc (defaultPath w₀) → w'.nodes j = w₀.nodes j) ∧
      (w'.nodes (w₀.loc (defaultPath w₀)) = w₀.nodes (w₀.loc (defaultPath w₀)) ∨
        ∃ old g', ((∃ g, w₀.nodes (w₀.loc (defaultPath w₀)) = some (.file g) ∧ g.content = old) ∨
            (w₀.nodes (w₀.loc (defaultPath w₀)) = none ∧ old = [])) ∧
          w'.nodes (w₀.loc (defaultPath w₀)) = some (.file g') ∧ Layered w₀ old g'.content) :=
  ⟨2 ^ (w - 1) + 6, fun _ hf m hx _ _ h =>
    C43_crash_leaves idna texts.hardcodedPSL x ((update_acts hw idna texts isPrint hf hhard O i o ho x m hx).crash h)⟩

/-- C88: if only one list is offered, it ends with its last marker, and the cache file is missing or holds a beginning of that
list, then the next New, by its text, gives an extractor of the complete list or the built-in list, and no error. -/
theorem C88_crash_safe (hr : Spec.IsRounding round) (hhard : ListFits w idna texts.hardcodedPSL) (O : List Obj) (i : Nat) (o : Obj)
    (ho : O[i]? = some o) (x : FastTLD) :
    ∃ N, ∀ fuel, N ≤ fuel → ∀ m : Mem, IsValue m o x → ∀ {w₀ w' w'' : World} {body : Bytes},
      ProcCrash (ReadFits w idna) (callSys round (sourceCtx w idna texts isPrint) fuel .Update [.obj i] ⟨[], O, []⟩) m w₀ w' →
      SameFiles w' w'' → (∀ g, w₀.nodes (w₀.loc (defaultPath w₀)) = some (.file g) → g.content <+: body) →
      OnlyOffers w₀ body → OnlyOffers w'' body → WellTerminated body → Coherent w'' → Stripped (defaultPath w₀) (defaultPath w₀) →
      ∀ n : SuffixListParams, (∀ c t, ¬ Usable w'' n.cacheFilePath c t) → ∀ m₁ v m₂ w₂,
      ProcExec (ReadFits w idna) (callSys round (sourceCtx w idna texts isPrint) fuel .New [.listParams n] ⟨[], [], []⟩) m₁ w'' v m₂ w₂ →
      ∃ y, Ended (.new n) m₁ m₂ v y none ∧ (Serves idna y texts.hardcodedPSL ∨ Serves idna y body) := by
  refine ⟨2 ^ (w - 1) + 6, fun fuel hf m hx w₀ w' w'' body h h1 h2 h3 h4 h5 h6 h7 n h8 m₁ v m₂ w₂ hrun => ?_⟩
  obtain ⟨y, v', evs, h9, h10⟩ := C43_crash_safe_partial idna texts.hardcodedPSL x
    ((update_acts hw idna texts isPrint hf hhard O i o ho x m hx).crash h) h1 h2 h3 h4 h5 h6 h7 n h8
  have h11 := ((new_acts hw hr idna texts isPrint hf hhard n m₁).exec hrun).1
  rw [h9] at h11
  exact ⟨y, h11, h10⟩

/-- C88: the text can be interrupted after each call and in the middle of each write. -/
theorem C88_crash_possible (hhard : ListFits w idna texts.hardcodedPSL) (O : List Obj) (i : Nat) (o : Obj) (ho : O[i]? = some o) (x : FastTLD) :
    ∃ N, ∀ fuel, N ≤ fuel → ∀ m : Mem, IsValue m o x → (∃ N, ∀ r, N ≤ r → m.nodes r = none) → ∀ (w₀ : World) (n j : Nat),
      (∀ e ∈ ((x.update idna texts.hardcodedPSL).exec w₀).2.2, ReadFits w idna e) →
      ProcCrash (ReadFits w idna) (callSys round (sourceCtx w idna texts isPrint) fuel .Update [.obj i] ⟨[], O, []⟩) m w₀
        ((x.update idna texts.hardcodedPSL).crashAt n j w₀) :=
  ⟨2 ^ (w - 1) + 6, fun _ hf m hx hm w₀ n j hev => (update_acts hw idna texts isPrint hf hhard O i o ho x m hx).crashAt hm n j w₀ hev⟩

end

/-! ## Concrete cases -/

/-- A memory with nothing in it. -/
def noNodes : Mem := ⟨fun _ => none, 0⟩

/-- The texts of the examples. -/
def exLib : Lib := ⟨exTexts, builtin, fun _ => .error []⟩

/-- The rules of a list are short. -/
def shortRules (text : Bytes) : Bool := (rulesOf idId true text ++ rulesOf idId false text).all fun s => decide ((s.length : Int) + 1 < 2 ^ 63)

theorem shortRules_fit {text : Bytes} (h : shortRules text = true) : ListFits 64 idId text := by
  intro incl s hs
  exact of_decide_eq_true (List.all_eq_true.1 h s (by cases incl <;> simp [hs]))

/-- If it is a list that is read, then its rules are short. -/
def readsShort (e : Event) : Bool := match e with
  | .readFile _ (some text) => shortRules text
  | _ => true

theorem readsShort_fits {e : Event} (h : readsShort e = true) : ReadFits 64 idId e := by
  rintro p text rfl
  exact shortRules_fit h

/-- The condition on a schedule, computed. -/
def playReads : List Turn → World × List Shared.Process → Bool
  | [], _ => true
  | t :: ts, s => (turnEvent t s).all readsShort && playReads ts (turn idId builtin t s)

theorem playReads_fits {ts : List Turn} {s : World × List Shared.Process} (h : playReads ts s = true) :
    PlayFits (ReadFits 64 idId) idId builtin ts s := by
  induction ts generalizing s with
  | nil => trivial
  | cons t ts ih =>
    rw [playReads, Bool.and_eq_true] at h
    refine ⟨fun e he => readsShort_fits ?_, ih h.2⟩
    have h1 := h.1
    rw [he] at h1
    exact h1

/-- What a process of the text that has finished without error gives for a URL, whatever its memory looks like. -/
def Gives (t : Proc) (url suffix : Bytes) : Prop :=
  ∃ v x, t.prog = .ret v ∧ Ended t.text t.begin t.mem v x none ∧ (suffixOf x url).map (·.1) = some suffix

/-- C88: the counterexample to C59, by the text: if the list changes between two downloads, then without any crash, error or
interruption the cache file may come to hold the beginning of one list and the end of the other, and a third process that runs
the text of New returns rules of both. -/
theorem C88_counterexample {round : Rat → Rat} (hr : Spec.IsRounding round) (isPrint : Nat → Bool) : ∃ N, ∀ fuel, N ≤ fuel →
    ∃ w' t₁ t₂ t₃, ProcSteps round (sourceCtx 64 idId exLib isPrint) fuel Begins (ReadFits 64 idId) NetChanges (exWorld none, []) (w', [t₁, t₂, t₃]) ∧
      w'.read (b! "/tmp/public_suffix_list.dat") = some (listB.take 37 ++ listA.drop 37) ∧
      Gives t₁ (b! "q.a.com") (b! "a.com") ∧ Gives t₂ (b! "q.a.com") (b! "com") ∧ Gives t₃ (b! "q.a.com") (b! "a.com") ∧
      Gives t₃ (b! "q.org") (b! "org") := by
  obtain ⟨N, h⟩ := C88_schedules (w := 64) (by decide) (round := round) idId exLib isPrint hr (shortRules_fit (by decide +kernel))
  refine ⟨N, fun fuel hf => ?_⟩
  obtain ⟨ts, h1, h2⟩ := h fuel hf (other := NetChanges) twoLists (exWorld none) (fun f w _ => ⟨f, rfl⟩)
    (fun job hj => ⟨.new ⟨[], true⟩, noNodes, by
      simp [twoLists] at hj
      subst hj
      exact ⟨rfl, 0, fun _ _ => rfl⟩⟩)
    (playReads_fits (by decide +kernel))
  have hc := C59_counterexample.2
  dsimp only at hc
  obtain ⟨hc1, -, hc2, hc3⟩ := hc
  change List.Forall₂ AsFar ts (play idId builtin twoLists (exWorld none, [])).2 at h2
  change ProcSteps _ _ _ _ _ _ _ ((play idId builtin twoLists (exWorld none, [])).1, ts) at h1
  generalize play idId builtin twoLists (exWorld none, []) = s at *
  obtain ⟨w', ps⟩ := s
  have give : ∀ {t p} {url suffix : Bytes}, AsFar t p → (match p.prog with
      | .ret (x, none) => (suffixOf x url).map (·.1)
      | _ => none) = some suffix → Gives t url suffix := by
    rintro t ⟨job, q, off⟩ url suffix ⟨-, -, hA⟩ he
    dsimp only at he hA
    split at he
    · obtain ⟨v, h3, h4⟩ := hA _ _ rfl
      exact ⟨v, _, h3, h4, he⟩
    · cases he
  dsimp only [results] at hc2 hc3 h1 h2
  have hlen : ps.length = 3 := by simpa using congrArg List.length hc2
  match ps, hlen, ts, h2, hc2, hc3 with
  | [p1, p2, p3], _, [t1, t2, t3], .cons a1 (.cons a2 (.cons a3 .nil)), hc2, hc3 =>
    simp only [List.map_cons, List.map_nil, List.cons.injEq, and_true] at hc2 hc3
    exact ⟨w', t1, t2, t3, h1, hc1, give a1 hc3.1, give a2 hc3.2.1, give a3 hc3.2.2, give a3 hc2.2.2⟩

/-- The conditions of the other theorems are met: the four processes of C59, by the text.  At the end one has died, and three
have finished. -/
example {round : Rat → Rat} (hr : Spec.IsRounding round) (isPrint : Nat → Bool) : ∃ N, ∀ fuel, N ≤ fuel →
    ∃ w' ts, ProcSteps round (sourceCtx 64 idId exLib isPrint) fuel Begins (ReadFits 64 idId) (Undisturbed listB) (exWorld none, []) (w', ts) ∧
      ts.length = 3 ∧ w'.read (b! "/tmp/public_suffix_list.dat") = some listB ∧ ∀ t ∈ ts, ∃ v x, t.prog = .ret v ∧ Ended t.text t.begin t.mem v x none := by
  obtain ⟨N, h⟩ := C88_schedules (w := 64) (by decide) (round := round) idId exLib isPrint hr (shortRules_fit (by decide +kernel))
  refine ⟨N, fun fuel hf => ?_⟩
  obtain ⟨ts, h1, h2⟩ := h fuel hf (other := Undisturbed listB) fourProcesses (exWorld none) (fun f w hf => by simp [fourProcesses] at hf)
    (fun job hj => by
      simp [fourProcesses] at hj
      rcases hj with rfl | rfl | rfl
      all_goals exact ⟨.new _, noNodes, rfl, 0, fun _ _ => rfl⟩)
    (playReads_fits (by decide +kernel))
  have hc : (results (play idId builtin fourProcesses (exWorld none, [])) (b! "q.b.org")).all (·.isSome) = true ∧
      (play idId builtin fourProcesses (exWorld none, [])).2.length = 3 ∧ cached (play idId builtin fourProcesses (exWorld none, [])) = some listB := by
    decide +kernel
  change List.Forall₂ AsFar ts (play idId builtin fourProcesses (exWorld none, [])).2 at h2
  change ProcSteps _ _ _ _ _ _ _ ((play idId builtin fourProcesses (exWorld none, [])).1, ts) at h1
  generalize play idId builtin fourProcesses (exWorld none, []) = s at *
  refine ⟨s.1, ts, h1, h2.length_eq.trans hc.2.1, hc.2.2, fun t ht => ?_⟩
  obtain ⟨a, b, rfl⟩ := List.append_of_mem ht
  obtain ⟨a', ⟨job, q, off⟩, b', e, -, ⟨-, -, hA⟩, -⟩ := forall₂_mid h2
  have h3 := List.all_eq_true.1 hc.1 _ (List.mem_map.2 ⟨⟨job, q, off⟩, by rw [e]; simp, rfl⟩)
  dsimp only at h3 hA
  split at h3
  · obtain ⟨v, h4, h5⟩ := hA _ _ rfl
    exact ⟨v, _, h4, h5⟩
  · cases h3

/-- Update by the text, over list A, interrupted having written 37 bytes of list B: the world of the counterexample to C43. -/
theorem C88_crash_counterexample {round : Rat → Rat} (isPrint : Nat → Bool) : ∃ N, ∀ fuel, N ≤ fuel → ∃ m o,
    IsValue m o ⟨b! "/tmp/public_suffix_list.dat", buildTrie [], true⟩ ∧
    ProcCrash (ReadFits 64 idId) (callSys round (sourceCtx 64 idId exLib isPrint) fuel .Update [.obj 0] ⟨[], [o], []⟩) m
      (exWorld (some (.file ⟨listA, 0, true, true⟩))) tornWorld ∧
    tornWorld.read (b! "/tmp/public_suffix_list.dat") = some (listB.take 37 ++ listA.drop 37) := by
  obtain ⟨N, h⟩ := C88_crash_possible (w := 64) (by decide) (round := round) idId exLib isPrint (shortRules_fit (by decide +kernel))
    [⟨b! "/tmp/public_suffix_list.dat", 0, true⟩] 0 _ rfl ⟨b! "/tmp/public_suffix_list.dat", buildTrie [], true⟩
  have hruns : Fasttld.Runs (buildTrieH []) noNodes 0 { noNodes with nodes := noNodes.nodes.put 0 ⟨false, []⟩ } := by
    rw [buildTrieH_eq]
    exact .call ⟨rfl, rfl⟩ (.call (o := .scan 0) (b := []) ⟨⟨false, []⟩, rfl, List.Perm.refl _, rfl⟩ (.ret _ _))
  have hx : IsValue { noNodes with nodes := noNodes.nodes.put 0 ⟨false, []⟩ } ⟨b! "/tmp/public_suffix_list.dat", 0, true⟩
      ⟨b! "/tmp/public_suffix_list.dat", buildTrie [], true⟩ := ⟨rfl, rfl, [], (C51_build [] hruns).1, rfl⟩
  refine ⟨N, fun fuel hf => ⟨_, _, hx, h fuel hf _ hx (put_free ⟨0, fun _ _ => rfl⟩) _ 5 37 fun e he => readsShort_fits ?_, by decide +kernel⟩⟩
  have hev : (((⟨b! "/tmp/public_suffix_list.dat", buildTrie [], true⟩ : FastTLD).update idId builtin).exec
      (exWorld (some (.file ⟨listA, 0, true, true⟩)))).2.2.all readsShort = true := by decide +kernel
  exact List.all_eq_true.1 hev e he

end Fasttld.Props
