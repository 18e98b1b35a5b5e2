import Verif.Proofs.Reading

/-!
# Extract computes what its specification says: the parts of a host, the whole result
-/

set_option linter.unusedSimpArgs false

namespace Fasttld
open Spec Trie

/-! ## The labels of the host -/

theorem Spec.HostShape.split {host first tail : Bytes} {rest : List SepLabel} (hl : HostShape host first rest tail) :
    ∃ ts : List SepLabel, hostSplit host = (first, ts ++ rest.reverse) ∧
      leadEmpty (ts ++ rest.reverse) = ts.length ∧
      labels first (ts ++ rest.reverse) ts.length = fromRight first rest := by
  obtain ⟨h1, h2, h3, h4⟩ := hl
  obtain ⟨ts, t1, t2⟩ := madeOf_pairs h3
  have hg : GoodR first (ts ++ rest.reverse) := by
    refine ⟨h2.1, fun p hp => ?_⟩
    rcases List.mem_append.1 hp with hp | hp
    · exact ⟨(t1 p hp).1, by rw [(t1 p hp).2]; exact freeOf_nil goodSet_separators⟩
    · exact h2.2 p (by simpa using hp)
  have hj : joinR first (ts ++ rest.reverse) = host := by
    rw [joinR_append, t2, h1, joinLabels_eq]
  refine ⟨ts, by rw [← hj]; exact hostSplit_joinR hg, ?_, ?_⟩
  · apply leadEmpty_append (fun p hp => (t1 p hp).2)
    rcases List.eq_nil_or_concat rest with rfl | ⟨a, ⟨s, l⟩, rfl⟩
    · exact .inl rfl
    · refine .inr ⟨s, l, a.reverse, by simp, ?_⟩
      rintro rfl
      exact h4 a s (by simp)
  · simp [labels, fromRight]

theorem hostShape_exists (n : Bytes) : ∃ first rest tail, HostShape n first rest tail := by
  have g := hostSplit_good n
  obtain ⟨t, ht, he⟩ := pre_lead g
  rw [hostSplit_join] at he
  refine ⟨(hostSplit n).1, ((hostSplit n).2.drop (leadEmpty (hostSplit n).2)).reverse, t, ?_, ⟨g.1, ?_⟩, ht, ?_⟩
  · rw [joinLabels_eq, List.reverse_reverse]; exact he
  · intro p hp
    exact g.2 p (List.mem_of_mem_drop (by simpa using hp))
  · intro f s hc
    have hd : (hostSplit n).2.drop (leadEmpty (hostSplit n).2) = (s, []) :: f.reverse := by
      have := congrArg List.reverse hc
      simpa using this
    rcases (leadEmpty_spec (hostSplit n).1 (hostSplit n).2).2 with h | h
    · unfold labels at h
      rw [hd] at h
      simp at h
    · exact h (lab_cons hd)

/-! ## Parts -/

theorem drop_labels {ts rest : List SepLabel} (i : Nat) :
    (ts ++ rest.reverse).drop (i + ts.length) = rest.reverse.drop i := by
  rw [List.drop_append]; simp

theorem reverse_drop_take {rest : List SepLabel} (i : Nat) :
    rest.reverse.drop i = (rest.take (rest.length - i)).reverse := by
  rw [List.drop_reverse]

theorem pre_textTo {first : Bytes} {ts rest : List SepLabel} (i : Nat) :
    pre first (ts ++ rest.reverse) (i + ts.length) = textTo first rest i := by
  rw [pre, drop_labels, reverse_drop_take, textTo, joinLabels_eq]

theorem textTo_append {first : Bytes} {front back : List SepLabel} :
    textTo first (front ++ back) back.length = joinLabels first front := by
  simp [textTo]

/-- Label and sub-domain at the left of a cut. -/
theorem subAndDomain_eq {first : Bytes} {ts front back : List SepLabel} {sb dom : Bytes}
    (h : SubAndDomain first front sb dom) (ig : Bool) :
    lab first (ts ++ (front ++ back).reverse) (back.length + ts.length) = dom ∧
    sub first (ts ++ (front ++ back).reverse) ig (back.length + ts.length + 1) = (if ig then [] else sb) := by
  have hd : (ts ++ (front ++ back).reverse).drop (back.length + ts.length) = front.reverse := by
    rw [drop_labels, List.reverse_append, List.drop_append]; simp
  rcases h with ⟨rfl, rfl, rfl⟩ | ⟨f, s, l, rfl, rfl, rfl⟩
  · constructor
    · rw [lab, hd]; rfl
    · rw [sub, if_neg]
      · simp
      · simp; omega
  · constructor
    · rw [lab, hd]; simp
    · have : (ts ++ (f ++ [(s, dom)] ++ back).reverse).drop (back.length + ts.length + 1) = f.reverse := by
        rw [← List.drop_drop, hd]; simp
      rw [sub, pre, this, joinLabels_eq]
      cases ig with
      | true => simp
      | false => rw [if_pos]; · rfl
                 · refine ⟨rfl, ?_⟩; simp; omega

theorem parts_eq {first : Bytes} {ts rest : List SepLabel} {mark : Option Nat} {cut : Nat} {sb dom suf reg : Bytes}
    (h : Parts first rest mark cut sb dom suf reg) (hlead : leadEmpty (ts ++ rest.reverse) = ts.length) (ig : Bool)
    (o : Out) (h1 : o.endK = mark.map (· + ts.length)) (h2 : o.sep = cut + ts.length) :
    nameParts first (ts ++ rest.reverse) ig o {} =
      { subDomain := if ig then [] else sb, domain := dom, suffix := suf, registeredDomain := reg } := by
  cases h with
  | noSuffix h =>
    have := subAndDomain_eq (ts := ts) (back := []) h ig
    simp only [List.append_nil, List.length_nil, Nat.zero_add] at this
    unfold nameParts
    rw [h1, hlead]
    simp only [Option.map_none, this.1, this.2]
  | @suffix front s l more back e cut sub dom hr hb hc hsd =>
    subst hr; subst hb; subst hc
    have hsd' := subAndDomain_eq (ts := ts) (back := (s, l) :: more ++ back) hsd ig
    have hlen : ((s, l) :: more ++ back).length = back.length + (more.length + 1) := by simp; omega
    rw [hlen, ← List.append_assoc] at hsd'
    unfold nameParts
    rw [h1, h2]
    simp only [Option.map_some]
    rw [if_pos (by simp; omega), hsd'.1, hsd'.2]
    have hdrop : (ts ++ (front ++ (s, l) :: more ++ back).reverse).drop (back.length + ts.length) =
        more.reverse ++ (s, l) :: front.reverse := by
      rw [drop_labels, List.reverse_append, List.drop_append]; simp
    congr 1
    · unfold seg
      rw [show back.length + (more.length + 1) + ts.length - 1 = back.length + ts.length + more.length by omega,
        show back.length + ts.length + more.length - (back.length + ts.length) = more.length by omega, hdrop, lab,
        ← List.drop_drop, hdrop, joinLabels_eq]
      simp
    · unfold seg
      rw [show back.length + (more.length + 1) + ts.length + 1 - 1 = back.length + (more.length + 1) + ts.length by omega,
        show back.length + (more.length + 1) + ts.length - (back.length + ts.length) = more.length + 1 by omega, hdrop,
        hsd'.1, joinLabels_eq]
      congr 1
      rw [List.take_append, List.take_of_length_le (by simp)]
      simp
  | @suffixOnly front back e cut hr hb hc =>
    subst hr; subst hb
    unfold nameParts
    rw [h1, h2]
    simp only [Option.map_some]
    rw [if_neg (by simp at hc ⊢; omega), pre_textTo, textTo_append]
    simp

theorem parts_exists {first : Bytes} {rest : List SepLabel} {mark : Option Nat} {cut : Nat}
    (h : ∀ e, mark = some e → e < cut ∧ cut ≤ rest.length + 1) :
    ∃ sb dom suf reg, Parts first rest mark cut sb dom suf reg := by
  have hsd : ∀ front, ∃ sb dom, SubAndDomain first front sb dom := by
    intro front
    rcases List.eq_nil_or_concat front with rfl | ⟨f, ⟨s, l⟩, rfl⟩
    · exact ⟨_, _, .inl ⟨rfl, rfl, rfl⟩⟩
    · exact ⟨_, _, .inr ⟨f, s, l, by simp, rfl, rfl⟩⟩
  cases mark with
  | none =>
    obtain ⟨sb, dom, h1⟩ := hsd rest
    exact ⟨sb, dom, _, _, .noSuffix h1⟩
  | some e =>
    obtain ⟨h1, h2⟩ := h e rfl
    have hsplit : ∀ i, i ≤ rest.length → ∃ front back, rest = front ++ back ∧ back.length = i := by
      intro i hi
      exact ⟨rest.take (rest.length - i), rest.drop (rest.length - i), (List.take_append_drop _ _).symm, by simp; omega⟩
    obtain ⟨front, back, hr, hb⟩ := hsplit e (by omega)
    rcases Nat.lt_or_ge rest.length cut with hc | hc
    · exact ⟨_, _, _, _, .suffixOnly hr hb hc⟩
    · have hfl : front.length + e = rest.length := by rw [hr]; simp [hb]
      obtain ⟨f, mid, hf, hm⟩ : ∃ f mid, front = f ++ mid ∧ mid.length = cut - e :=
        ⟨front.take (front.length - (cut - e)), front.drop (front.length - (cut - e)),
          (List.take_append_drop _ _).symm, by simp; omega⟩
      cases mid with
      | nil => simp at hm; omega
      | cons p more =>
        obtain ⟨s, l⟩ := p
        simp only [List.length_cons] at hm
        obtain ⟨sb, dom, h3⟩ := hsd f
        exact ⟨sb, dom, _, _, .suffix (by rw [hr, hf]) hb (by omega) h3⟩

/-! ## The host -/

theorem checked_eq {n first t : Bytes} {ts rest : List SepLabel} {o : Out}
    (h : Checked n first rest o.walked t) (hn : joinR first (ts ++ rest.reverse) = n) :
    checkedText first (ts ++ rest.reverse) (o.shift ts.length) = t := by
  cases h with
  | noSuffix h =>
    have h : o.endK = none := h
    unfold checkedText Out.shift
    simp only [h, Option.map_none]
    exact pre_textTo _
  | @suffix e h hc =>
    have h : o.endK = some e := h
    have hc : o.sep ≤ rest.length := hc
    unfold checkedText Out.shift
    simp only [h, Option.map_some]
    rw [if_pos (by simp; omega)]
    exact pre_textTo _
  | @suffixOnly e h hc =>
    have h : o.endK = some e := h
    have hc : rest.length < o.sep := hc
    unfold checkedText Out.shift
    simp only [h, Option.map_some]
    rw [if_neg (by simp; omega)]
    exact hn

theorem judged_hostF {rules : List Bytes} {ig : Bool} {n first tail : Bytes} {rest : List SepLabel} {w : Option Walked}
    {r : ExtractResult} {err : Option Err} (hs : HostShape n first rest tail)
    (hw : w = (walkL (buildTrie rules) (fromRight first rest) 0 none).map Out.walked)
    (h : Judged ig n first rest w r err) : hostF (buildTrie rules) ig n {} = (r, err) := by
  obtain ⟨ts, h1, h2, h3⟩ := hs.split
  have hj := hostSplit_join n
  rw [h1] at hj
  simp only at hj
  have hadd := walkL_add (buildTrie rules) (fromRight first rest) 0 ts.length none
  rw [Nat.zero_add, Option.map_none] at hadd
  unfold hostF
  simp only [h1, h2, h3, hadd]
  cases ho : walkL (buildTrie rules) (fromRight first rest) 0 none with
  | none =>
    rw [ho] at hw
    subst hw
    cases h
    rfl
  | some o =>
    rw [ho] at hw
    subst hw
    simp only [Option.map_some]
    cases h with
    | ipv4 h =>
      rw [if_pos ((isIPv4B_iff n).2 h)]
      simp only [Out.shift, pre_textTo]
      rfl
    | invalid h4 hc hx =>
      rw [if_neg (fun hc => h4 ((isIPv4B_iff n).1 hc)), checked_eq hc hj, if_pos]
      have := mt (hasInvalidChars_false_iff _).1 hx
      simpa using this
    | noDomain h4 hc hx hp =>
      rw [if_neg (fun hc => h4 ((isIPv4B_iff n).1 hc)), checked_eq hc hj, if_neg]
      · rw [parts_eq hp h2 ig (o.shift ts.length) rfl rfl]
        simp
      · rw [(hasInvalidChars_false_iff _).2 hx]; simp
    | name h4 hc hx hp hd =>
      rw [if_neg (fun hc => h4 ((isIPv4B_iff n).1 hc)), checked_eq hc hj, if_neg]
      · rw [parts_eq hp h2 ig (o.shift ts.length) rfl rfl]
        simp [hd]
      · rw [(hasInvalidChars_false_iff _).2 hx]; simp

theorem judged_exists {rules : List Bytes} (ig : Bool) {n first : Bytes} {rest : List SepLabel} :
    ∃ r err, Judged ig n first rest ((walkL (buildTrie rules) (fromRight first rest) 0 none).map Out.walked) r err := by
  cases ho : walkL (buildTrie rules) (fromRight first rest) 0 none with
  | none => exact ⟨_, _, .consecutive⟩
  | some o =>
    have hb := walkL_bounds ho (by simp [fromRight]) (by simp)
    rw [fromRight_length] at hb
    simp only [Option.map_some]
    by_cases h4 : IsIPv4 n
    · exact ⟨_, _, .ipv4 h4⟩
    · obtain ⟨t, ht⟩ : ∃ t, Checked n first rest o.walked t := by
        cases he : o.endK with
        | none => exact ⟨_, .noSuffix he⟩
        | some e =>
          rcases Nat.lt_or_ge rest.length o.sep with h | h
          · exact ⟨_, .suffixOnly he h⟩
          · exact ⟨_, .suffix he h⟩
      by_cases hx : HostCharsOK t
      · obtain ⟨sb, dom, suf, reg, hp⟩ := parts_exists (first := first) (rest := rest) (mark := o.walked.mark)
          (cut := o.walked.cut) (by
            intro e he
            have := hb.2.2.2.2.2 e he
            have h1 := hb.2.1
            have h2 := hb.2.2.2.2.1
            refine ⟨this, ?_⟩
            change o.sep ≤ _
            omega)
        by_cases hd : dom = []
        · subst hd; exact ⟨_, _, .noDomain h4 ht hx hp⟩
        · exact ⟨_, _, .name h4 ht hx hp hd⟩
      · exact ⟨_, _, .invalid h4 ht hx⟩

theorem hostResult_iff {rules : List Bytes} {ig : Bool} {n : Bytes} {r : ExtractResult} {err : Option Err} :
    HostResult rules ig n r err ↔ hostF (buildTrie rules) ig n {} = (r, err) := by
  have hne : ∀ first rest, fromRight first rest ≠ [] := by intro first rest; simp [fromRight]
  constructor
  · rintro ⟨first, rest, tail, ds, w, h1, h2, h3, h4⟩
    exact judged_hostF h1 ((reading_iff (hne _ _) h2).1 h3) h4
  · intro h
    obtain ⟨first, rest, tail, h1⟩ := hostShape_exists n
    obtain ⟨r', err', hj⟩ := judged_exists (rules := rules) ig (n := n) (first := first) (rest := rest)
    have h2 := judged_hostF h1 rfl hj
    rw [h] at h2
    simp only [Prod.mk.injEq] at h2
    obtain ⟨rfl, rfl⟩ := h2
    exact ⟨first, rest, tail, _, _, h1, labelValues_iff.2 rfl, reading_walk rules (hne _ _), hj⟩

/-! ## The result -/

theorem finished_eq {idna : Idna} {rules : List Bytes} {e : URLParams} {sch ui a : Bytes} {part : HostPart}
    {r : ExtractResult} {err : Option Err} (hA : Authority e.url sch ui a) (hp : HostAt a part)
    (h : Finished idna rules e sch ui part r err) : extract idna (buildTrie rules) e = .ok (r, err) := by
  have hscan := hostAt_iff.1 hp
  rw [extract_authority idna _ e hA, hscan]
  have hnone : ∀ {after : Bytes}, (∀ x t, after = x :: t → isHostEnd x = true) →
      (∀ port path, ¬ AfterHost after port path) → portPath after = none := by
    intro after h1 h2
    cases hx : portPath after with
    | none => rfl
    | some p => obtain ⟨p, q⟩ := p; exact absurd ((portPath_iff h1).1 hx) (h2 p q)
  have hplain : ∀ {host after : Bytes}, part = .name host after → ∀ x t, after = x :: t → isHostEnd x = true := by
    rintro host after rfl
    exact (scanSplit_name_iff.1 hscan).2.2
  cases h with
  | brackets => rfl
  | notIPv6 h =>
    simp only [literalF]
    rw [if_neg (fun hc => h ((isIPv6B_iff _).1 hc))]
  | trailing h hc =>
    simp only [literalF]
    rw [if_pos ((isIPv6B_iff _).2 h), if_pos (by simp [hc])]
  | @ipv6Port inner after h h1 h2 =>
    simp only [literalF]
    rw [if_pos ((isIPv6B_iff _).2 h), if_neg, hnone h1 h2]
    cases after with
    | nil => simp
    | cons c t => simp [h1 c t rfl]
  | ipv6 h h1 =>
    simp only
    rw [literalF_ok.2 ⟨h, _, _, h1, rfl⟩]
  | namePort h =>
    simp only [nameF]
    rw [hnone (hplain rfl) h]
  | escape h1 h2 =>
    simp only [nameF]
    rw [(portPath_iff (hplain rfl)).2 h1]
    simp only [hostText, queryUnescape_error_iff.2 h2]
  | idna h1 h2 h3 h4 =>
    simp only [nameF]
    rw [(portPath_iff (hplain rfl)).2 h1]
    simp only [hostText, (queryUnescape_iff _ _).2 h2, h3, h4]
    rfl
  | @host host after port path n r err h1 h2 h3 =>
    simp only [nameF]
    rw [(portPath_iff (hplain rfl)).2 h1]
    simp only [hostText_iff.2 h2]
    rw [hostF_front (u := { scheme := sch, userInfo := ui, port := port, path := path }) ⟨rfl, rfl, rfl, rfl, rfl⟩,
      hostResult_iff.1 h3]
    rfl

theorem finished_exists (idna : Idna) (rules : List Bytes) (e : URLParams) (sch ui : Bytes) {a : Bytes} {part : HostPart}
    (hp : HostAt a part) : ∃ r err, Finished idna rules e sch ui part r err := by
  have hscan := hostAt_iff.1 hp
  cases part with
  | bad er => exact ⟨_, _, .brackets⟩
  | literal inner after =>
    by_cases h6 : IsIPv6 IsIPv4 inner
    · by_cases hx : ∀ x t, after = x :: t → isHostEnd x = true
      · by_cases ha : ∃ port path, AfterHost after port path
        · obtain ⟨port, path, ha⟩ := ha
          exact ⟨_, _, .ipv6 h6 ha⟩
        · exact ⟨_, _, .ipv6Port h6 hx fun port path h => ha ⟨port, path, h⟩⟩
      · cases after with
        | nil => exact absurd (by simp) hx
        | cons c t =>
          refine ⟨_, _, .trailing h6 ?_⟩
          cases hc : isHostEnd c with
          | false => rfl
          | true => exact absurd (by rintro x t' h; injection h with h; rw [← h]; exact hc) hx
    · exact ⟨_, _, .notIPv6 h6⟩
  | name host after =>
    by_cases ha : ∃ port path, AfterHost after port path
    · obtain ⟨port, path, ha⟩ := ha
      cases hq : queryUnescape host with
      | error esc => exact ⟨_, _, .escape ha (queryUnescape_error_iff.1 hq)⟩
      | ok un =>
        cases ht : hostText idna e.convertURLToPunyCode host with
        | ok n =>
          exact ⟨_, _, .host ha (hostText_iff.1 ht) (hostResult_iff.2 rfl)⟩
        | error er =>
          unfold hostText at ht
          rw [hq] at ht
          simp only at ht
          split at ht
          · simp at ht
          · rename_i hpn
            split at ht
            · rename_i msg hm
              exact ⟨_, _, .idna ha ((queryUnescape_iff _ _).1 hq) (by simpa using hpn) hm⟩
            · simp at ht
    · exact ⟨_, _, .namePort fun port path h => ha ⟨port, path, h⟩⟩

theorem extracts_iff (idna : Idna) (rules : List Bytes) (e : URLParams) (r : ExtractResult) (err : Option Err) :
    extract idna (buildTrie rules) e = .ok (r, err) ↔ Extracts idna rules e r err := by
  constructor
  · intro h
    obtain ⟨sch, ui, a, hA⟩ := authority_exists e.url
    obtain ⟨r', err', hf⟩ := finished_exists idna rules e sch ui (scan_hostAt a)
    have := finished_eq hA (scan_hostAt a) hf
    rw [h] at this
    simp only [Except.ok.injEq, Prod.mk.injEq] at this
    obtain ⟨rfl, rfl⟩ := this
    exact ⟨sch, ui, a, _, hA, scan_hostAt a, hf⟩
  · rintro ⟨sch, ui, a, part, h1, h2, h3⟩
    exact finished_eq h1 h2 h3

end Fasttld
