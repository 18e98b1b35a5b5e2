import Verif.Props.Lists

/-!
# C24 for all lists, exactly
-/

set_option linter.unusedSimpArgs false

namespace Fasttld.Props
open Spec

/-- Two hosts with the decoded labels `ds` (labels from the right), written as `ls` and `ls'`: at the place of the
first wildcard there is an exception for the label of the one, as written, if and only if there is one for the label
of the other. -/
def SameExceptions (rules : List Bytes) (ls ls' ds : List Bytes) : Prop :=
  ∀ j l l', ls[j]? = some l → ls'[j]? = some l' → Known rules (ds.take j ++ [star]) →
    (∀ i < j, ¬ Known rules (ds.take i ++ [star])) →
    (Known rules (ds.take j ++ [33 :: l]) ↔ Known rules (ds.take j ++ [33 :: l']))

/-- Two walks over labels that decode to the same labels differ at most in the exception. -/
theorem walkL_raw {node : Trie} {ls ls' ds : List Bytes} (h : DecodesAll ls ds) (h' : DecodesAll ls' ds) {k : Nat}
    {endK : Option Nat} {o o' : Out} (hw : walkL node ls k endK = some o) (hw' : walkL node ls' k endK = some o') :
    o.endK = o'.endK ∧ (o.sep = o'.sep ↔ ∀ j l l', ls[j]? = some l → ls'[j]? = some l' → node.has (ds.take j ++ [star]) →
      (∀ i < j, ¬ node.has (ds.take i ++ [star])) →
      (node.has (ds.take j ++ [33 :: l]) ↔ node.has (ds.take j ++ [33 :: l']))) := by
  induction ls generalizing node ls' ds k endK with
  | nil =>
    cases ds with
    | nil => cases ls' with
      | nil => rw [hw] at hw'; injection hw' with hw'; subst hw'; simp
      | cons => exact h'.elim
    | cons => exact h.elim
  | cons l ls ih =>
    cases ds with
    | nil => exact h.elim
    | cons d ds =>
    cases ls' with
    | nil => exact h'.elim
    | cons l' ls' =>
      have e2 : ls = [] ↔ ls' = [] := by
        have h2 := h.2
        have h2' := h'.2
        cases ls <;> cases ls' <;> cases ds <;> simp_all [DecodesAll]
      have e3 : ls'.isEmpty = ls.isEmpty := by
        rw [Bool.eq_iff_iff]; simpa using e2.symm
      have hget : ∀ x, node.has ([] ++ [x]) ↔ (node.get x).isSome := by
        intro x
        rw [List.nil_append, has_cons]
        cases node.get x <;> simp [has_nil]
      rw [walkL] at hw hw'
      split at hw
      · simp at hw
      split at hw'
      · simp at hw'
      unfold labelL at hw hw'
      rw [unescapeOrEmpty_of h.1] at hw
      rw [unescapeOrEmpty_of h'.1, e3] at hw'
      cases hst : node.get (b! "*") with
      | some v =>
        simp only [hst] at hw hw'
        injection hw with hw
        injection hw' with hw'
        subst hw hw'
        refine ⟨rfl, ?_⟩
        have hs : node.has ([] ++ [star]) := (hget _).2 (by rw [show star = b! "*" from rfl, hst]; rfl)
        constructor
        · intro he j x x' hx hx' _ hj
          cases j with
          | succ j => exact absurd hs (hj 0 (Nat.zero_lt_succ _))
          | zero =>
            simp only [List.getElem?_cons_zero, Option.some.injEq] at hx hx'
            subst hx hx'
            simp only [List.take_zero]
            rw [hget, hget]
            simp only at he
            split at he <;> split at he <;> rename_i a1 a2 <;> first | omega | exact iff_of_true a1 a2 | exact iff_of_false a1 a2
        · intro hall
          have := hall 0 l l' rfl rfl hs (by simp)
          simp only [List.take_zero] at this
          rw [hget, hget] at this
          simp only [this]
      | none =>
        simp only [hst] at hw hw'
        have hs : ¬ node.has ([] ++ [star]) := by
          rw [hget, show star = b! "*" from rfl, hst]; simp
        -- nothing follows
        have hvac : (∀ v, node.get d = some v → ¬ ∃ j x, j < ls.length ∧ v.has (ds.take j ++ [x])) →
            ∀ j x x', (l :: ls)[j]? = some x → (l' :: ls')[j]? = some x' → node.has ((d :: ds).take j ++ [star]) →
              (∀ i < j, ¬ node.has ((d :: ds).take i ++ [star])) →
              (node.has ((d :: ds).take j ++ [33 :: x]) ↔ node.has ((d :: ds).take j ++ [33 :: x'])) := by
          intro hno j x x' hx hx' hj _
          cases j with
          | zero => exact absurd hj hs
          | succ j =>
            exfalso
            rw [List.take_succ_cons, List.cons_append, has_cons] at hj
            obtain ⟨v, hv1, hv2⟩ := hj
            refine hno v hv1 ⟨j, star, ?_, hv2⟩
            have := (List.getElem?_eq_some_iff.1 hx).1
            simp at this; omega
        cases hd : node.get d with
        | none =>
          simp only [hd] at hw hw'
          injection hw with hw
          injection hw' with hw'
          subst hw hw'
          refine ⟨rfl, fun _ => hvac (by simp [hd]), fun _ => rfl⟩
        | some val =>
          simp only [hd] at hw hw'
          by_cases hc : val.kids.length = 0 ∨ ls.isEmpty = true
          · simp only [hc, if_true] at hw hw'
            injection hw with hw
            injection hw' with hw'
            subst hw hw'
            refine ⟨rfl, fun _ => hvac ?_, fun _ => rfl⟩
            rintro v hv ⟨j, x, hj, hx⟩
            rw [hd] at hv
            injection hv with hv
            subst hv
            rcases hc with hc | hc
            · rw [kids_empty_iff] at hc
              cases hp : ds.take j ++ [x] with
              | nil => simp at hp
              | cons y p =>
                rw [hp, has_cons] at hx
                obtain ⟨v, hv, -⟩ := hx
                rw [hc y] at hv; simp at hv
            · rw [List.isEmpty_iff] at hc
              subst hc; simp at hj
          · simp only [hc, if_false] at hw hw'
            obtain ⟨i1, i2⟩ := ih h.2 h'.2 hw hw'
            refine ⟨i1, i2.trans ?_⟩
            have hstep : ∀ p, node.has (d :: p) ↔ val.has p := by
              intro p
              rw [has_cons, hd]; simp
            constructor
            · intro hall j x x' hx hx' hj hi
              cases j with
              | zero => exact absurd hj hs
              | succ j =>
                simp only [List.take_succ_cons, List.cons_append, hstep] at hj ⊢
                refine hall j x x' (by simpa using hx) (by simpa using hx') hj ?_
                intro i hij hc
                exact hi (i + 1) (by omega) (by simpa only [List.take_succ_cons, List.cons_append, hstep] using hc)
            · intro hall j x x' hx hx' hj hi
              have := hall (j + 1) x x' (by simpa using hx) (by simpa using hx')
                (by simpa only [List.take_succ_cons, List.cons_append, hstep] using hj)
                (by
                  intro i hij hc
                  cases i with
                  | zero => exact hs hc
                  | succ i =>
                    exact hi i (by omega) (by simpa only [List.take_succ_cons, List.cons_append, hstep] using hc))
              simpa only [List.take_succ_cons, List.cons_append, hstep] using this

/-- The text has this number of labels. -/
def HasLabels (text : Bytes) (k : Nat) : Prop := ∃ first rest, LabelsOf text first rest ∧ rest.length + 1 = k

/-- C24, for all lists: two hosts with the same decoded labels, both accepted as host names, have SubDomain, Domain and
Suffix with the same numbers of labels, in the spelling of the host, if there is an exception for both or for none
of them. -/
theorem C24_decoded (idna idna' : Idna) (rules : List Bytes) (e e' : URLParams)
    {r r' : ExtractResult} (hig : e.ignoreSubDomains = false) (hig' : e'.ignoreSubDomains = false)
    (h : extract idna (buildTrie rules) e = .ok (r, none)) (ht : r.hostType = .hostName)
    (h' : extract idna' (buildTrie rules) e' = .ok (r', none)) (ht' : r'.hostType = .hostName) :
    ∃ host after n first rest tail host' after' n' first' rest' tail',
      (Authority e.url r.scheme r.userInfo (host ++ after) ∧ IsPlainHost host ∧ AfterHost after r.port r.path ∧
        HostTextOf idna e.convertURLToPunyCode host n ∧ HostLabels n first rest tail) ∧
      (Authority e'.url r'.scheme r'.userInfo (host' ++ after') ∧ IsPlainHost host' ∧ AfterHost after' r'.port r'.path ∧
        HostTextOf idna' e'.convertURLToPunyCode host' n' ∧ HostLabels n' first' rest' tail') ∧
      ∀ name, DecodesAll (fromRight first rest) name → DecodesAll (fromRight first' rest') name →
        (SameExceptions rules (fromRight first rest) (fromRight first' rest') name →
          ∃ d n, CutLabels first (rest.take (rest.length - d)) n r.subDomain r.domain r.suffix ∧
            CutLabels first' (rest'.take (rest'.length - d)) n r'.subDomain r'.domain r'.suffix) ∧
        (r.suffix ≠ [] → (∃ k, HasLabels r.suffix k ∧ HasLabels r'.suffix k) →
          SameExceptions rules (fromRight first rest) (fromRight first' rest') name) := by
  obtain ⟨host, after, n, first, rest, tail, o, hA, hp, haf, hn, hl, h1, h2⟩ := name_labels_result idna _ e h ht
  obtain ⟨host', after', n', first', rest', tail', o', hA', hp', haf', hn', hl', h1', h2'⟩ :=
    name_labels_result idna' _ e' h' ht'
  rw [hig] at h2
  rw [hig'] at h2'
  obtain ⟨k, hw, hc1, hc2⟩ := name_cut h1 h2 hl
  obtain ⟨k', hw', hc1', hc2'⟩ := name_cut h1' h2' hl'
  refine ⟨host, after, n, first, rest, tail, host', after', n', first', rest', tail', ⟨hA, hp, haf, hn, hl⟩,
    ⟨hA', hp', haf', hn', hl'⟩, ?_⟩
  intro name hd hd'
  -- both walks from 0
  have z := walkL_add (buildTrie rules) (fromRight first rest) 0 k none
  have z' := walkL_add (buildTrie rules) (fromRight first' rest') 0 k' none
  rw [Nat.zero_add, Option.map_none] at z z'
  rw [hw] at z
  rw [hw'] at z'
  cases hv : walkL (buildTrie rules) (fromRight first rest) 0 none with
  | none => rw [hv] at z; simp at z
  | some p =>
  cases hv' : walkL (buildTrie rules) (fromRight first' rest') 0 none with
  | none => rw [hv'] at z'; simp at z'
  | some p' =>
  rw [hv] at z
  rw [hv'] at z'
  simp only [Option.map_some, Option.some.injEq] at z z'
  subst z z'
  obtain ⟨q1, q2⟩ := walkL_raw hd hd' hv hv'
  have q2 : p.sep = p'.sep ↔ SameExceptions rules (fromRight first rest) (fromRight first' rest') name := by
    rw [q2]
    unfold SameExceptions
    simp only [known_iff]
  constructor
  · intro hx
    have hsep := q2.2 hx
    cases heo : p.endK with
    | none =>
      rw [heo] at q1
      exact ⟨0, 0, by simpa using hc1 (by simp [Out.shift, heo]), by simpa using hc1' (by simp [Out.shift, ← q1])⟩
    | some x =>
      rw [heo] at q1
      obtain ⟨b1, b2, b3, b4⟩ := hc2 (x + k) (by simp [Out.shift, heo])
      obtain ⟨b1', b2', b3', b4'⟩ := hc2' (x + k') (by simp [Out.shift, ← q1])
      refine ⟨x, p.sep - x, ?_, ?_⟩
      · have e1 : x + k - k = x := by omega
        have e2 : (p.shift k).sep - (x + k) = p.sep - x := by simp only [Out.shift]; omega
        rw [e1, e2] at b4; exact b4
      · have e1 : x + k' - k' = x := by omega
        have e2 : (p'.shift k').sep - (x + k') = p.sep - x := by simp only [Out.shift]; omega
        rw [e1, e2] at b4'; exact b4'
  · rintro hs ⟨c, hk, hk'⟩
    rw [← q2]
    have key : ∀ {first : Bytes} {rest : List SepLabel} {n tail : Bytes} {i j : Nat} {sb dom suf : Bytes},
        HostLabels n first rest tail → 0 < j → CutLabels first (rest.take i) j sb dom suf → HasLabels suf c → c = j := by
      rintro first rest n tail i j sb dom suf hl hj ⟨front, back, f1, f2, f3, -⟩ ⟨a, b, f4, rfl⟩
      cases back with
      | nil => simp at f2; omega
      | cons y more =>
        obtain ⟨s, l⟩ := y
        simp only at f3
        have hmem : ∀ y ∈ (s, l) :: more, y ∈ rest := by
          intro y hy
          exact List.mem_of_mem_take (by rw [f1]; exact List.mem_append_right _ hy)
        have f5 : LabelsOf suf l more :=
          ⟨f3, (hl.free.2 _ (hmem (s, l) (by simp))).2, fun y hy => hl.free.2 y (hmem y (by simp [hy]))⟩
        have := (labelsOf_split f4).symm.trans (labelsOf_split f5)
        simp only [Prod.mk.injEq, List.reverse_inj] at this
        rw [this.2]
        simpa using f2
    cases heo : p.endK with
    | none =>
      exfalso
      apply hs
      obtain ⟨front, back, -, f2, f3, -⟩ := hc1 (by simp [Out.shift, heo])
      cases back with
      | nil => exact f3
      | cons => simp at f2
    | some x =>
      rw [heo] at q1
      obtain ⟨b1, b2, b3, b4⟩ := hc2 (x + k) (by simp [Out.shift, heo])
      obtain ⟨b1', b2', b3', b4'⟩ := hc2' (x + k') (by simp [Out.shift, ← q1])
      have c1 := key hl (by omega) b4 hk
      have c2 := key hl' (by omega) b4' hk'
      simp only [Out.shift] at c1 c2 b2 b2'
      omega

/-- Of `www` and `%77ww`, which is `www`, only the first has the exception `!www.ck`: the one Suffix has a label less.
For `%66oo` and `foo` there is no exception. -/
example : Decodes (b! "%77ww") (b! "www") ∧ Decodes (b! "%66oo") (b! "foo") ∧
    Known pslRules [b! "ck", star] ∧ Known pslRules [b! "ck", b! "!www"] ∧ ¬ Known pslRules [b! "ck", b! "!%77ww"] ∧
    extract idId (buildTrie pslRules) { url := b! "a.www.ck" } =
      .ok ({ subDomain := b! "a", domain := b! "www", suffix := b! "ck", registeredDomain := b! "www.ck",
             hostType := .hostName }, none) ∧
    extract idId (buildTrie pslRules) { url := b! "a.%77ww.ck" } =
      .ok ({ domain := b! "a", suffix := b! "%77ww.ck", registeredDomain := b! "a.%77ww.ck", hostType := .hostName }, none) ∧
    extract idId (buildTrie pslRules) { url := b! "a.%66oo.ck" } =
      .ok ({ domain := b! "a", suffix := b! "%66oo.ck", registeredDomain := b! "a.%66oo.ck", hostType := .hostName }, none) ∧
    extract idId (buildTrie pslRules) { url := b! "a.foo.ck" } =
      .ok ({ domain := b! "a", suffix := b! "foo.ck", registeredDomain := b! "a.foo.ck", hostType := .hostName }, none) := by
  refine ⟨?_, ?_, ?_, ?_, ?_, by decide +kernel, by decide +kernel, by decide +kernel, by decide +kernel⟩
  · rw [← queryUnescape_iff]; decide +kernel
  · rw [← queryUnescape_iff]; decide +kernel
  · rw [known_iff, Trie.has]; decide +kernel
  · rw [known_iff, Trie.has]; decide +kernel
  · rw [known_iff, Trie.has]; decide +kernel

end Fasttld.Props
