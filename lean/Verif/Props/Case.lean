import Verif.Props.Lists
import Verif.Props.Relate

/-!
# C47 without punycode conversion: exactly when the case of letters matters
-/

set_option linter.unusedSimpArgs false

namespace Fasttld.Props
open Fasttld Fasttld.Spec Trie

/-- The text in lower case. -/
def lower (s : Bytes) : Bytes := s.map lowerByte

/-- No capital letters. -/
def NoCapitals (s : Bytes) : Prop := ∀ c ∈ s, ¬ (65 ≤ c.toNat ∧ c.toNat ≤ 90)

instance (s : Bytes) : Decidable (NoCapitals s) := by unfold NoCapitals; infer_instance

theorem lower_eq_iff {s : Bytes} : lower s = s ↔ NoCapitals s := by
  have key : ∀ c : UInt8, lowerByte c = c ↔ ¬ (65 ≤ c.toNat ∧ c.toNat ≤ 90) := by
    intro c
    exact forall_byte (P := fun c => lowerByte c = c ↔ ¬ (65 ≤ c.toNat ∧ c.toNat ≤ 90)) (by decide +kernel) c
  unfold lower NoCapitals
  induction s with
  | nil => simp
  | cons c s ih => simp [ih, key]

theorem lower_lower (s : Bytes) : lower (lower s) = lower s := by
  have key : ∀ c : UInt8, lowerByte (lowerByte c) = lowerByte c := by
    intro c
    exact forall_byte (P := fun c => lowerByte (lowerByte c) = lowerByte c) (by decide +kernel) c
  simp [lower, List.map_map, Function.comp_def, key]

theorem lower_nil {s : Bytes} : lower s = [] ↔ s = [] := by simp [lower]

/-- Separators are not letters. -/
theorem lower_sep {s : Nat} (hs : s ∈ separators) : lower (encode s) = encode s := by
  revert s; decide +kernel

theorem lower_prefix {s : Nat} (hs : s ∈ separators) {t : Bytes} : encode s <+: lower t → encode s <+: t := by
  have key : ∀ (e : Bytes), (∀ c ∈ e, ∀ d, lowerByte d = c → d = c) → ∀ t, e <+: lower t → e <+: t := by
    intro e
    induction e with
    | nil => intro _ t _; exact List.nil_prefix
    | cons c e ih =>
      intro hc t ht
      cases t with
      | nil => simp [lower] at ht
      | cons d t =>
        simp only [lower, List.map_cons, List.cons_prefix_cons] at ht ⊢
        exact ⟨(hc c (by simp) d ht.1.symm).symm, ih (fun x hx => hc x (by simp [hx])) t ht.2⟩
  refine key _ ?_ t
  intro c hc d
  have : ∀ s ∈ separators, ∀ c ∈ encode s, ¬ (97 ≤ c.toNat ∧ c.toNat ≤ 122) := by decide +kernel
  have hn := this s hs c hc
  intro hd
  subst hd
  revert hn
  exact forall_byte (P := fun d => ¬ (97 ≤ (lowerByte d).toNat ∧ (lowerByte d).toNat ≤ 122) → d = lowerByte d) (by decide +kernel) d

theorem lower_free {l : Bytes} (h : FreeOf separators l) : FreeOf separators (lower l) := by
  rintro s hs ⟨x, y, hxy⟩
  refine h s hs ?_
  have hd : encode s <+: (lower l).drop x.length := by
    rw [← hxy, List.append_assoc, List.drop_left' rfl]
    exact ⟨y, rfl⟩
  rw [show (lower l).drop x.length = lower (l.drop x.length) by simp [lower, List.map_drop]] at hd
  obtain ⟨z, hz⟩ := lower_prefix hs hd
  exact ⟨l.take x.length, z, by rw [List.append_assoc, hz, List.take_append_drop]⟩

/-- Labels and separators in lower case. -/
def lowerRest (rest : List SepLabel) : List SepLabel := rest.map (fun p => (p.1, lower p.2))

theorem lower_append (a b : Bytes) : lower (a ++ b) = lower a ++ lower b := by simp [lower]

theorem lower_join {first : Bytes} {rest : List SepLabel} (h : ∀ p ∈ rest, p.1 ∈ separators) :
    lower (joinLabels first rest) = joinLabels (lower first) (lowerRest rest) := by
  induction rest generalizing first with
  | nil => rfl
  | cons p rest ih =>
    obtain ⟨s, l⟩ := p
    simp only [joinLabels, lowerRest, List.map_cons, lower_append]
    rw [lower_sep (h (s, l) (by simp)), ih (fun p hp => h p (by simp [hp]))]
    rfl

theorem lower_shape {n first : Bytes} {rest : List SepLabel} {tail : Bytes} (h : HostShape n first rest tail) :
    HostShape (lower n) (lower first) (lowerRest rest) tail := by
  refine ⟨?_, ⟨lower_free h.free.1, ?_⟩, h.tail, ?_⟩
  · rw [h.text, lower_append, lower_join (fun p hp => (h.free.2 p hp).1)]
    congr 1
    obtain ⟨cs, hcs, rfl⟩ := h.tail
    clear h
    induction cs with
    | nil => rfl
    | cons c cs ih =>
      rw [List.flatMap_cons, lower_append, lower_sep (hcs c (by simp)), ih (fun x hx => hcs x (by simp [hx]))]
  · intro p hp
    obtain ⟨q, hq, rfl⟩ := List.mem_map.1 hp
    exact ⟨(h.free.2 q hq).1, lower_free (h.free.2 q hq).2⟩
  · intro f s he
    obtain ⟨a, b, rfl, h1, h2⟩ := List.map_eq_append_iff.1 he
    cases b with
    | nil => simp at h2
    | cons q b =>
      cases b with
      | cons => simp at h2
      | nil =>
        simp at h2
        refine h.last a q.1 ?_
        rw [← lower_nil.1 h2.2]

theorem lower_fromRight (first : Bytes) (rest : List SepLabel) :
    fromRight (lower first) (lowerRest rest) = (fromRight first rest).map lower := by
  unfold fromRight lowerRest
  simp [List.map_reverse, List.map_map, Function.comp_def]

theorem lower_parts {first : Bytes} {rest : List SepLabel} (h : ∀ p ∈ rest, p.1 ∈ separators) {mark : Option Nat} {cut : Nat}
    {sub dom suf reg : Bytes} (hp : Parts first rest mark cut sub dom suf reg) :
    Parts (lower first) (lowerRest rest) mark cut (lower sub) (lower dom) (lower suf) (lower reg) := by
  have hsd : ∀ {front : List SepLabel} {sub dom : Bytes}, (∀ p ∈ front, p.1 ∈ separators) → SubAndDomain first front sub dom →
      SubAndDomain (lower first) (lowerRest front) (lower sub) (lower dom) := by
    rintro front sub dom hf (⟨rfl, rfl, rfl⟩ | ⟨f, s, l, rfl, rfl, rfl⟩)
    · exact .inl ⟨rfl, rfl, rfl⟩
    · exact .inr ⟨lowerRest f, s, lower dom, by simp [lowerRest], rfl, lower_join (fun p hp => hf p (by simp [hp]))⟩
  cases hp with
  | noSuffix g => exact .noSuffix (hsd h g)
  | @suffix front s l more back e cut sub dom e1 e2 e3 g =>
    subst e1
    have hm : ∀ p ∈ more, p.1 ∈ separators := fun p hp => h p (by simp [hp])
    have hs : s ∈ separators := h (s, l) (by simp)
    rw [lower_join hm, lower_join (rest := (s, l) :: more) (by
      intro p hp
      rcases List.mem_cons.1 hp with rfl | hp
      · exact hs
      · exact hm p hp)]
    exact .suffix (front := lowerRest front) (back := lowerRest back) (by simp [lowerRest]) (by simp [lowerRest, e2])
      (by simp [lowerRest]; omega) (hsd (fun p hp => h p (by simp [hp])) g)
  | @suffixOnly front back e cut e1 e2 e3 =>
    subst e1
    rw [lower_join (fun p hp => h p (by simp [hp]))]
    exact .suffixOnly (front := lowerRest front) (back := lowerRest back) (by simp [lowerRest]) (by simp [lowerRest, e2])
      (by simp [lowerRest] at e3 ⊢; omega)

/-- Labels of rules have no capitals if the rules have none. -/
theorem known_lower {rules : List Bytes} (hlow : ∀ r ∈ rules, NoCapitals r) {p : List Bytes} (hk : Known rules p) :
    ∀ l ∈ p, NoCapitals l := by
  rcases hk with rfl | ⟨q, hpq, r, hr, -, -, he⟩
  · intro l hl; simp at hl
  · intro l hl c hc
    apply hlow r hr c
    rw [he]
    have hlq : l ∈ q.reverse := List.mem_reverse.2 (hpq.subset hl)
    revert hlq
    generalize q.reverse = ls
    clear he hr hpq hl
    induction ls with
    | nil => intro h; simp at h
    | cons x ls ih =>
      intro h
      rcases List.mem_cons.1 h with rfl | h
      · cases ls with
        | nil => simpa [List.intercalate] using hc
        | cons y ls => rw [intercalate_cons_cons]; simp [hc]
      · have := ih h
        cases ls with
        | nil => simp at h
        | cons y ls => rw [intercalate_cons_cons]; simp [this]

/-- More labels, longer text. -/
theorem suffix_longer {first : Bytes} {rest : List SepLabel} {e cut cut' : Nat} {sub dom suf reg sub' dom' suf' reg' : Bytes}
    (hp : Parts first rest (some e) cut sub dom suf reg) (hp' : Parts first rest (some e) cut' sub' dom' suf' reg')
    (hd : dom ≠ []) (hd' : dom' ≠ []) (hlt : cut < cut') : suf.length < suf'.length := by
  cases hp with
  | suffixOnly => exact absurd rfl hd
  | @suffix front s l more back _ _ _ _ e1 e2 e3 g =>
    cases hp' with
    | suffixOnly => exact absurd rfl hd'
    | @suffix front' s' l' more' back' _ _ _ _ e1' e2' e3' g' =>
      rw [e1] at e1'
      obtain ⟨h1, h2⟩ := List.append_inj' e1' (by omega)
      have hlen := congrArg List.length h1
      simp at hlen
      -- the shorter list of labels is the end of the longer one
      have h3 : ((s, l) :: more) <:+ ((s', l') :: more') := by
        refine List.suffix_of_suffix_length_le (l₃ := front ++ (s, l) :: more) ⟨front, rfl⟩ ⟨front', h1.symm⟩ (by simp; omega)
      obtain ⟨x, hx⟩ := h3
      cases x with
      | nil =>
        have := congrArg List.length hx
        simp at this; omega
      | cons y x =>
        simp only [List.cons_append, List.cons.injEq] at hx
        rw [← hx.2, joinLabels_append]
        simp only [List.length_append]
        have := List.length_pos_iff.2 (encode_ne_nil s)
        omega

/-- The labels, from the right, that are compared with labels of rules: those that can be followed in the rules, and the next one
if a wildcard applies and there is an exception for it. -/
def Compared (rules : List Bytes) (ls : List Bytes) (m j : Nat) : Prop :=
  j < m ∨ (j = m ∧ Known rules (ls.take m ++ [star]) ∧ ∃ l, ls[m]? = some l ∧ Known rules (ls.take m ++ [33 :: l]))

/-- C47, exactly, without punycode conversion, for lists without capital letters: if a host name without escapes and the same
name in lower case are both accepted, then they have the same suffix, up to case, if and only if the name in lower case has
no suffix, or there are no capital letters in those labels that are compared with labels of rules when the suffix of the
name in lower case is looked for. -/
theorem C47_exact (idna : Idna) (rules : List Bytes) (hlow : ∀ r ∈ rules, NoCapitals r) (e e' : URLParams) {r r' : ExtractResult}
    (hc : e.convertURLToPunyCode = false) (hc' : e'.convertURLToPunyCode = false)
    {host after after' : Bytes} (hA : Authority e.url r.scheme r.userInfo (host ++ after))
    (hat : HostAt (host ++ after) (.name host after))
    (hA' : Authority e'.url r'.scheme r'.userInfo (lower host ++ after'))
    (hat' : HostAt (lower host ++ after') (.name (lower host) after'))
    (hesc : ∀ c ∈ host, c ≠ 37 ∧ c ≠ 43)
    (h : extract idna (buildTrie rules) e = .ok (r, none)) (ht : r.hostType = .hostName)
    (h' : extract idna (buildTrie rules) e' = .ok (r', none)) (ht' : r'.hostType = .hostName) :
    ∃ first rest tail m seen cut, HostShape host first rest tail ∧
      Follows rules ((fromRight first rest).map lower) ((fromRight first rest).map lower) m ∧
      Stops rules ((fromRight first rest).map lower) ((fromRight first rest).map lower) m seen cut ∧
      (SameUpToCase r.suffix r'.suffix ↔ r'.suffix = [] ∨
        ∀ j l, Compared rules ((fromRight first rest).map lower) m j → (fromRight first rest)[j]? = some l → NoCapitals l) := by
  obtain ⟨host0, after0, n, first, rest, tail, ds, m, seen, cut, mark, H⟩ := accepted h ht
  obtain ⟨host1, after1, n', first', rest', tail', ds', m', seen', cut', mark', H'⟩ := accepted h' ht'
  -- the host texts
  have host_eq : ∀ {h0 a0 h1 a1 url s u : Bytes}, Authority url s u (h0 ++ a0) → IsPlainHost h0 →
      (∀ x t, a0 = x :: t → isHostEnd x = true) → Authority url s u (h1 ++ a1) → HostAt (h1 ++ a1) (.name h1 a1) → h0 = h1 := by
    intro h0 a0 h1 a1 url s u k1 k2 k3 k4 k5
    obtain ⟨-, -, he⟩ := Authority_unique k1 k4
    have h6 := hostAt_iff.1 k5
    rw [← he, scanSplit_name_iff.2 ⟨rfl, k2, k3⟩] at h6
    cases h6; rfl
  obtain rfl := host_eq H.authority H.plain (afterHost_head H.after) hA hat
  have hh1 := host_eq H'.authority H'.plain (afterHost_head H'.after) hA' hat'
  subst hh1
  have hn : n = host0 := by
    obtain ⟨un, -, ⟨-, -, hx⟩ | ⟨hx, -⟩⟩ := H.text
    · exact hx
    · rw [hc] at hx; cases hx
  have hn' : n' = lower host0 := by
    obtain ⟨un, -, ⟨-, -, hx⟩ | ⟨hx, -⟩⟩ := H'.text
    · exact hx
    · rw [hc'] at hx; cases hx
  subst hn hn'
  obtain ⟨rfl, rfl, rfl⟩ := (lower_shape H.shape).unique H'.shape
  have hsep : ∀ p ∈ rest, p.1 ∈ separators := fun p hp => (H.shape.free.2 p hp).1
  -- the labels stand for themselves
  have lab_mem : ∀ {n first : Bytes} {rest : List SepLabel} {tail : Bytes}, HostShape n first rest tail → ∀ l ∈ fromRight first rest, ∀ c ∈ l, c ∈ n := by
    intro n first rest tail hs l hl c hcl
    rw [hs.text]
    simp only [fromRight, List.mem_reverse, List.mem_cons, List.mem_map] at hl
    rcases hl with rfl | ⟨p, hp, rfl⟩
    · have := (infix_textTo_first (first := l) (rest := rest) 0).subset hcl
      unfold textTo at this
      simp at this
      simp [this]
    · obtain ⟨a, b, rfl⟩ := List.append_of_mem hp
      obtain ⟨s, l⟩ := p
      rw [joinLabels_append]
      have := (infix_textTo_first (first := l) (rest := b) 0).subset hcl
      unfold textTo at this
      simp at this
      simp [this]
  have plain_vals : ∀ {ls ds : List Bytes}, LabelValues ls ds → (∀ l ∈ ls, ∀ c ∈ l, c ≠ 37 ∧ c ≠ 43) → ds = ls := by
    intro ls ds hv hl
    rw [labelValues_iff.1 hv]
    conv => rhs; rw [← List.map_id ls]
    apply List.map_congr_left
    intro l hlm
    unfold unescapeOrEmpty
    rw [queryUnescape_plain (hl l hlm)]
    rfl
  have hls : ∀ l ∈ fromRight first rest, ∀ c ∈ l, c ≠ 37 ∧ c ≠ 43 := fun l hl c hcl => hesc c (lab_mem H.shape l hl c hcl)
  have hl3743 : ∀ c : UInt8, c ≠ 37 ∧ c ≠ 43 → lowerByte c ≠ 37 ∧ lowerByte c ≠ 43 := by
    intro c
    exact forall_byte (P := fun c => c ≠ 37 ∧ c ≠ 43 → lowerByte c ≠ 37 ∧ lowerByte c ≠ 43) (by decide +kernel) c
  obtain rfl := plain_vals H.values hls
  have hv' := H'.values
  rw [lower_fromRight] at hv'
  obtain rfl := plain_vals hv' (by
    intro l hl c hcl
    obtain ⟨x, hx, rfl⟩ := List.mem_map.1 hl
    obtain ⟨y, hy, rfl⟩ := List.mem_map.1 hcl
    exact hl3743 y (hls x hx y hy))
  have hF := H.follows
  have hS := H.stops
  have hM := H.marks
  have hF' := H'.follows
  have hS' := H'.stops
  have hM' := H'.marks
  rw [lower_fromRight] at hF' hS'
  obtain ⟨sub, hp, -⟩ := H.parts
  obtain ⟨sub', hp', -⟩ := H'.parts
  have hd := H.domain
  have hd' := H'.domain
  refine ⟨first, rest, tail, m', seen', cut', H.shape, hF', hS', ?_⟩
  have hlp := lower_parts hsep hp
  have hlens := congrArg List.length (rfl : (fromRight first rest).map lower = (fromRight first rest).map lower)
  generalize hls0 : fromRight first rest = ls at *
  -- what is found with a given reading of the name as it is
  have found : ∀ {m1 seen1 cut1 : Nat} {mark1 : Option Nat}, Follows rules ls ls m1 → Stops rules ls ls m1 seen1 cut1 →
      FirstMark rules ls m1 mark1 → cut = cut1 ∧ mark = mark1 := by
    intro m1 seen1 cut1 mark1 g1 g2 g3
    have := reading_unique rfl (.ends hF hS hM) (.ends g1 g2 g3)
    cases this
    exact ⟨rfl, rfl⟩
  have getl : ∀ j, (ls.map lower)[j]? = ls[j]?.map lower := fun j => List.getElem?_map ..
  -- labels before a capital
  have takes : ∀ j, (∀ i < j, ∀ l, ls[i]? = some l → NoCapitals l) → (ls.map lower).take j = ls.take j := by
    intro j hj
    apply List.ext_getElem?
    intro i
    rw [List.getElem?_take, List.getElem?_take]
    split
    · rename_i hi
      rw [getl]
      cases hx : ls[i]? with
      | none => rfl
      | some l => simp [lower_eq_iff.2 (hj i hi l hx)]
    · rfl
  have hmle : m' ≤ ls.length := by simpa using hF'.le
  -- the first `j` labels without capitals can be followed in the name as it is
  have folj : ∀ j ≤ m', (∀ i < j, ∀ l, ls[i]? = some l → NoCapitals l) → Follows rules ls ls j := by
    intro j hj hno
    have ht := takes j hno
    refine ⟨by omega, ?_, ?_, ?_⟩
    · rw [← ht]
      exact hF'.known.prefix (by
        rw [show (ls.map lower).take j = ((ls.map lower).take m').take j by rw [List.take_take]; congr 1; omega]
        exact List.take_prefix _ _)
    · intro i hi
      rw [← takes i (fun x hx => hno x (by omega))]
      exact hF'.noStar i (by omega)
    · intro i hi hil hx
      refine hF'.nonempty i (by omega) (by simpa using hil) ?_
      rw [getl, hx]; rfl
  have notKnown : ∀ {p : List Bytes} {l : Bytes}, ¬ NoCapitals l → l ∈ p → ¬ Known rules p :=
    fun hl hm hk => hl (known_lower hlow hk _ hm)
  -- a place where the name in lower case has a mark, if the labels before are the same
  have markj : ∀ j, (∀ i < j, ∀ l, ls[i]? = some l → NoCapitals l) → ∀ i < j, (ls.map lower).take (i + 1) = ls.take (i + 1) :=
    fun j hno i hi => takes (i + 1) (fun x hx => hno x (by omega))
  constructor
  · intro hsame
    refine Classical.byContradiction fun hcon => ?_
    simp only [not_or] at hcon
    obtain ⟨hne, hcap⟩ := hcon
    -- there is a mark
    obtain ⟨x, rfl⟩ : ∃ x, mark' = some x := by
      cases mark' with
      | some x => exact ⟨x, rfl⟩
      | none =>
        exfalso; apply hne
        generalize r'.suffix = suf at hp' ⊢
        generalize r'.registeredDomain = reg at hp'
        generalize r'.domain = dom at hp'
        cases hp'; rfl
    have hsl : (lower r.suffix).length = r'.suffix.length := by
      have := congrArg List.length hsame
      simpa [lower] using this
    by_cases hex : ∃ j < m', ∃ l, ls[j]? = some l ∧ ¬ NoCapitals l
    · -- a label that is followed has a capital: take the first one
      obtain ⟨j, hj, l, hl, hcl, hmin⟩ : ∃ j < m', ∃ l, ls[j]? = some l ∧ ¬ NoCapitals l ∧
          ∀ i < j, ∀ l, ls[i]? = some l → NoCapitals l := by
        obtain ⟨j, hj, hx⟩ := hex
        induction j using Nat.strongRecOn with
        | ind j ih =>
          by_cases hsm : ∃ i < j, ∃ l, ls[i]? = some l ∧ ¬ NoCapitals l
          · obtain ⟨i, hi, hxi⟩ := hsm
            exact ih i hi (by omega) hxi
          · obtain ⟨l, h1, h2⟩ := hx
            refine ⟨j, hj, l, h1, h2, fun i hi l hl => ?_⟩
            exact Classical.byContradiction fun hn => hsm ⟨i, hi, l, hl, hn⟩
      have hfol := folj j (by omega) hmin
      have hlm : l ∈ ls.take (j + 1) := List.mem_of_getElem? (i := j) (by rw [List.getElem?_take]; simp [hl])
      have hstop : Stops rules ls ls j j j := by
        refine .unknown ?_ hl ?_ ?_ (notKnown hcl hlm)
        · by_cases hj0 : j = 0
          · exact .inl (by rw [hj0]; rfl)
          · refine .inr ⟨lower l, ?_⟩
            rw [← takes j hmin, show (ls.map lower).take j ++ [lower l] = (ls.map lower).take (j + 1) by
              rw [List.take_add_one, getl, hl]; rfl]
            exact hF'.known.prefix (by
              rw [show (ls.map lower).take (j + 1) = ((ls.map lower).take m').take (j + 1) by rw [List.take_take]; congr 1; omega]
              exact List.take_prefix _ _)
        · intro hjl hnil
          refine hF'.nonempty j hj (by simpa using hjl) ?_
          rw [getl, hl, hnil]; rfl
        · rw [← takes j hmin]; exact hF'.noStar j hj
      have hcut' : j < cut' := by cases hS' <;> omega
      cases hM' with
      | @«at» _ g1 g2 g3 =>
        rcases Nat.lt_or_ge x j with hxj | hxj
        · have hfm : FirstMark rules ls j (some x) := by
            refine .at hxj ?_ ?_
            · rw [← markj j hmin x hxj]; exact g2
            · intro i hi
              rw [← markj j hmin i (by omega)]; exact g3 i hi
          obtain ⟨rfl, rfl⟩ := found hfol hstop hfm
          have := suffix_longer hlp hp' (by simpa [lower_nil] using hd) hd' hcut'
          omega
        · have hfm : FirstMark rules ls j none := by
            refine .none fun i hi => ?_
            rw [← markj j hmin i hi]; exact g3 i (by omega)
          obtain ⟨rfl, rfl⟩ := found hfol hstop hfm
          have hs0 : r.suffix = [] := by
            generalize r.suffix = suf at hp ⊢
            generalize r.registeredDomain = reg at hp
            generalize r.domain = dom at hp
            cases hp; rfl
          apply hne
          rw [hs0] at hsl
          exact List.length_eq_zero_iff.1 (by rw [← hsl]; rfl)
    · -- only the label of an exception has one
      have hno : ∀ i < m', ∀ l, ls[i]? = some l → NoCapitals l := by
        intro i hi l hl
        exact Classical.byContradiction fun hn => hex ⟨i, hi, l, hl, hn⟩
      have hcmp : ∃ j l, Compared rules (ls.map lower) m' j ∧ ls[j]? = some l ∧ ¬ NoCapitals l := by
        refine Classical.byContradiction fun hn => hcap fun j l h1 h2 => ?_
        exact Classical.byContradiction fun hn' => hn ⟨j, l, h1, h2, hn'⟩
      obtain ⟨j, l, hj, hl, hcl⟩ := hcmp
      rcases hj with hj | ⟨rfl, hst, l', hl', hexc⟩
      · exact hex ⟨j, hj, l, hl, hcl⟩
      · rw [getl, hl] at hl'
        obtain rfl : lower l = l' := Option.some.inj hl'
        have htk := takes j hno
        have hstop : Stops rules ls ls j j (j + 1) := by
          refine .wildcard hl ?_ (by rw [← htk]; exact hst) (notKnown (l := 33 :: l) ?_ (by simp))
          · intro hjl hnil
            -- an empty label is not skipped in the name in lower case either
            subst hnil
            exact hcl (fun c hc => by simp at hc)
          · intro hn
            exact hcl (fun c hc => hn c (by simp [hc]))
        have hcut' : cut' = j := by
          cases hS' with
          | @all m h1 =>
            exfalso
            rcases h1 with h1 | h1
            · have := List.getElem?_eq_some_iff.1 hl
              obtain ⟨hlt, -⟩ := this
              simp at h1; omega
            · exact h1 (.inr ⟨star, hst⟩)
          | unknown _ _ _ h4 => exact absurd hst h4
          | exception => rfl
          | wildcard h1 _ _ h4 =>
            exfalso
            rw [getl, hl] at h1
            obtain rfl := Option.some.inj h1
            exact h4 hexc
        have hfm : FirstMark rules ls j (some x) := by
          cases hM' with
          | «at» g1 g2 g3 =>
            refine .at g1 ?_ ?_
            · rw [← markj j hno x g1]; exact g2
            · intro i hi
              rw [← markj j hno i (by omega)]; exact g3 i hi
        obtain ⟨rfl, rfl⟩ := found (folj j (Nat.le_refl _) hno) hstop hfm
        have := suffix_longer hp' hlp hd' (by simpa [lower_nil] using hd) (by omega)
        omega
  · intro hcon
    by_cases hall : ∀ j l, Compared rules (ls.map lower) m' j → ls[j]? = some l → NoCapitals l
    · have hno : ∀ i < m', ∀ l, ls[i]? = some l → NoCapitals l := fun i hi l hl => hall i l (.inl hi) hl
      have htk := takes m' hno
      have hfol := folj m' (Nat.le_refl _) hno
      have hstop : Stops rules ls ls m' seen' cut' := by
        cases hS' with
        | @all m h1 =>
          refine .all ?_
          rw [← htk]
          simpa using h1
        | @unknown m l' g1 g2 g3 g4 g5 =>
          rw [getl] at g2
          cases hl : ls[m']? with
          | none => rw [hl] at g2; cases g2
          | some l =>
            rw [hl] at g2
            obtain rfl := Option.some.inj g2
            refine .unknown (by rw [← htk]; exact g1) hl ?_ (by rw [← htk]; exact g4) ?_
            · intro hjl hnil
              exact g3 (by simpa using hjl) (by rw [hnil]; rfl)
            · intro hk
              apply g5
              have hlm : l ∈ ls.take (m' + 1) := List.mem_of_getElem? (i := m') (by rw [List.getElem?_take]; simp [hl])
              have hlc := known_lower hlow hk l hlm
              rw [takes (m' + 1) (fun i hi l2 hl2 => ?_)]
              · exact hk
              · rcases Nat.lt_or_ge i m' with h1 | h1
                · exact hno i h1 l2 hl2
                · obtain rfl : i = m' := by omega
                  rw [hl] at hl2
                  obtain rfl := Option.some.inj hl2
                  exact hlc
        | @exception m l' g1 g2 g3 g4 =>
          rw [getl] at g1
          cases hl : ls[m']? with
          | none => rw [hl] at g1; cases g1
          | some l =>
            rw [hl] at g1
            obtain rfl := Option.some.inj g1
            have hlc := hall m' l (.inr ⟨rfl, g3, lower l, by rw [getl, hl]; rfl, g4⟩) hl
            refine .exception hl ?_ (by rw [← htk]; exact g3) (by rw [← htk, ← lower_eq_iff.2 hlc]; exact g4)
            intro hjl hnil
            exact g2 (by simpa using hjl) (by rw [hnil]; rfl)
        | @wildcard m l' g1 g2 g3 g4 =>
          rw [getl] at g1
          cases hl : ls[m']? with
          | none => rw [hl] at g1; cases g1
          | some l =>
            rw [hl] at g1
            obtain rfl := Option.some.inj g1
            refine .wildcard hl ?_ (by rw [← htk]; exact g3) ?_
            · intro hjl hnil
              exact g2 (by simpa using hjl) (by rw [hnil]; rfl)
            · intro hk
              apply g4
              have hlc : NoCapitals l := fun c hc => known_lower hlow hk (33 :: l) (by simp) c (by simp [hc])
              rw [htk, lower_eq_iff.2 hlc]; exact hk
      have hfm : FirstMark rules ls m' mark' := by
        cases hM' with
        | none g => exact .none fun i hi => by rw [← markj m' hno i hi]; exact g i hi
        | «at» g1 g2 g3 =>
          exact .at g1 (by rw [← markj m' hno _ g1]; exact g2) fun i hi => by
            rw [← markj m' hno i (by omega)]; exact g3 i hi
      obtain ⟨rfl, rfl⟩ := found hfol hstop hfm
      obtain ⟨-, -, h3, -⟩ := parts_unique hlp hp'
      unfold SameUpToCase
      rw [← h3]
      exact (lower_lower _).symm
    · -- no suffix in lower case: no suffix at all
      have hemp : r'.suffix = [] := hcon.resolve_right hall
      have hnone : mark' = none := by
        cases mark' with
        | none => rfl
        | some x =>
          exfalso
          cases hM' with
          | «at» g1 g2 g3 =>
            generalize r'.suffix = suf at hp' hemp
            generalize r'.registeredDomain = reg at hp'
            generalize r'.domain = dom at hp' hd'
            cases hp' with
            | suffixOnly => exact hd' rfl
            | @suffix front s l more back _ _ _ _ e1 e2 e3 g =>
              cases more with
              | cons q more =>
                have := congrArg List.length hemp
                have h5 := List.length_pos_iff.2 (encode_ne_nil q.1)
                simp [joinLabels] at this
                exact encode_ne_nil q.1 this.2.1
              | nil =>
                have hl : l = [] := hemp
                subst hl
                have hlen : ls.length = rest.length + 1 := by rw [← hls0]; simp [fromRight]
                have hlen' : (lowerRest rest).length = rest.length := by simp [lowerRest]
                have hget : (ls.map lower)[x]? = some [] := by
                  rw [← hls0, ← lower_fromRight, e1]
                  subst e2
                  simp [fromRight]
                refine hF'.nonempty x g1 ?_ hget
                have := congrArg List.length e1
                simp at this ⊢
                omega
      have hmn : mark = none := by
        cases hM with
        | none => rfl
        | @«at» x g1 g2 g3 =>
          exfalso
          subst hnone
          have hkx : Known rules (ls.take (x + 1)) := hF.known.prefix (by
            rw [show ls.take (x + 1) = (ls.take m).take (x + 1) by rw [List.take_take]; congr 1; omega]
            exact List.take_prefix _ _)
          have hnox : ∀ i < x + 1, ∀ l, ls[i]? = some l → NoCapitals l := by
            intro i hi l hl
            refine known_lower hlow hkx l (List.mem_of_getElem? (i := i) ?_)
            rw [List.getElem?_take]; simp [hi, hl]
          have hmx : m' ≤ x := by
            refine Nat.le_of_not_lt fun hlt => ?_
            cases hM' with
            | none g4 =>
              refine g4 x hlt ?_
              rw [takes (x + 1) hnox]; exact g2
          have hkm : Known rules ((ls.map lower).take (m' + 1)) := by
            rw [takes (m' + 1) (fun i hi => hnox i (by omega))]
            exact hkx.prefix (by
              rw [show ls.take (m' + 1) = (ls.take (x + 1)).take (m' + 1) by rw [List.take_take]; congr 1; omega]
              exact List.take_prefix _ _)
          have hml : m ≤ ls.length := hF.le
          have hns : ¬ Known rules ((ls.map lower).take m' ++ [star]) := by
            rw [takes m' (fun i hi => hnox i (by omega))]
            exact hF.noStar m' (by omega)
          cases hS' with
          | @all k h1 =>
            rcases h1 with h1 | h1
            · simp at h1; omega
            · apply h1
              refine .inr ⟨(ls.map lower)[seen' + 1]'(by simp; omega), ?_⟩
              rw [List.take_append_getElem]
              exact hkm
          | unknown _ _ _ _ h5 => exact h5 hkm
          | exception _ _ h3 => exact hns h3
          | wildcard _ _ h3 => exact hns h3
      have hs0 : r.suffix = [] := by
        rw [hmn] at hp
        generalize r.suffix = suf at hp ⊢
        generalize r.registeredDomain = reg at hp
        generalize r.domain = dom at hp
        cases hp; rfl
      rw [hs0, hemp]
      rfl

-- capitals to the left of the labels that are compared do not matter; in a label that is compared they do, and then the suffix
-- is shorter or empty; in the label of an exception they make the suffix longer
example : ∀ x ∈ [(b! "WWW.Example.co.uk", b! "www.example.co.uk", b! "co.uk", b! "co.uk"),
      (b! "a.CO.uk", b! "a.co.uk", b! "uk", b! "co.uk"), (b! "a.co.UK", b! "a.co.uk", [], b! "co.uk"),
      (b! "a.B.ck", b! "a.b.ck", b! "B.ck", b! "b.ck"), (b! "A.none", b! "a.none", [], []),
      (b! "a.WWW.ck", b! "a.www.ck", b! "WWW.ck", b! "ck")],
    ((extract idId (buildTrie [b! "uk", b! "co.uk", b! "*.ck", b! "ck", b! "!www.ck"]) { url := x.1 }).toOption.map (·.1.suffix),
     (extract idId (buildTrie [b! "uk", b! "co.uk", b! "*.ck", b! "ck", b! "!www.ck"]) { url := x.2.1 }).toOption.map (·.1.suffix)) =
    (some x.2.2.1, some x.2.2.2) := by decide +kernel

/-- C47 is false without punycode conversion also in the other direction: a capital letter in the label of an exception makes
the suffix longer. -/
theorem C47_counterexample_exception :
    extract idId (buildTrie [b! "ck", b! "*.ck", b! "!www.ck"]) { url := b! "a.WWW.ck" } =
      .ok ({ domain := b! "a", suffix := b! "WWW.ck", registeredDomain := b! "a.WWW.ck", hostType := .hostName }, none) ∧
    extract idId (buildTrie [b! "ck", b! "*.ck", b! "!www.ck"]) { url := b! "a.www.ck" } =
      .ok ({ subDomain := b! "a", domain := b! "www", suffix := b! "ck", registeredDomain := b! "www.ck", hostType := .hostName },
        none) := by
  exact ⟨by decide +kernel, by decide +kernel⟩

end Fasttld.Props
