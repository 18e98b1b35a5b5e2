import Verif.Proofs.Walk
import Verif.Proofs.Brackets

/-!
# Extract as a total function

`extractF` has no indices, no faults and no fuel; `extract_eq` says that the model of the code always
returns what `extractF` says.
-/

set_option linter.unusedSimpArgs false

namespace Fasttld
open Spec

theorem isIPv4_ok (s : Bytes) : ∃ b, isIPv4 s = .ok b := ⟨_, (isIPv4_eq s).choose_spec.1⟩

/-- `isIPv4` as a Boolean. -/
def isIPv4B (s : Bytes) : Bool := match isIPv4 s with | .ok b => b | .error _ => false
/-- `isIPv6` as a Boolean. -/
def isIPv6B (s : Bytes) : Bool := match isIPv6 s with | .ok b => b | .error _ => false

theorem isIPv4B_ok (s : Bytes) : isIPv4 s = .ok (isIPv4B s) := by
  obtain ⟨b, hb, -⟩ := isIPv4_eq s; simp [isIPv4B, hb]
theorem isIPv6B_ok (s : Bytes) : isIPv6 s = .ok (isIPv6B s) := by
  obtain ⟨b, hb, -⟩ := isIPv6_eq s; simp [isIPv6B, hb]
theorem isIPv4B_iff (s : Bytes) : isIPv4B s = true ↔ IsIPv4 s := by
  obtain ⟨b, hb, h⟩ := isIPv4_eq s; simp [isIPv4B, hb, h]
theorem isIPv6B_iff (s : Bytes) : isIPv6B s = true ↔ IsIPv6 IsIPv4 s := by
  obtain ⟨b, hb, h⟩ := isIPv6_eq s; simp [isIPv6B, hb, h]

/-! ## Port and path -/

/-- Port and path from what follows the host; `none`: invalid port. -/
def portPath : Bytes → Option (Bytes × Bytes)
  | [] => some ([], [])
  | c :: r =>
    if c = 58 then
      if portOK (r.takeWhile (fun c => !isPathStart c)) then
        some (r.takeWhile (fun c => !isPathStart c), r.dropWhile (fun c => !isPathStart c))
      else none
    else some ([], c :: r)

theorem stagePortPath_eq (after : Bytes) (u : ExtractResult) (hp : u.port = []) (hq : u.path = [])
    (ha : ∀ x t, after = x :: t → isHostEnd x = true) :
    stagePortPath after u = match portPath after with
      | none => fail u .invalidPort
      | some p => .ok { u with port := p.1, path := p.2 } := by
  unfold stagePortPath
  cases after with
  | nil => cases u; simp_all [portPath]
  | cons c r =>
    rw [if_pos (by simp)]
    simp only
    rw [index_zero]
    simp only [liftGo, bind_ok, portPath]
    rw [indexAnyASCII_eq _ _ contains_pathStart]
    by_cases hc : c = 58
    · subst hc
      simp only [if_true, List.takeWhile_cons, List.dropWhile_cons, isPathStart_58, Bool.not_false, List.length_cons]
      have happ := (List.takeWhile_append_dropWhile (p := fun c => !isPathStart c) (l := r)).symm
      generalize htw : r.takeWhile (fun c => !isPathStart c) = p at *
      generalize hdw : r.dropWhile (fun c => !isPathStart c) = q at *
      have happ' : (58 :: r : Bytes) = [58] ++ p ++ q := by rw [happ]; simp
      by_cases hq0 : q = []
      · subst hq0
        simp only [if_true]
        have hr : r = p := by simpa using happ
        have := slice_from_one 58 r
        simp only [List.length_cons] at this
        rw [this]
        simp only [bind_ok]
        rw [hr]
        by_cases hpo : portOK p = true
        · rw [if_pos hpo, if_pos hpo]
          simp only [bind_ok]
          rw [if_neg (by simp)]
          cases u; simp_all
        · rw [if_neg hpo, if_neg hpo]; rfl
      · simp only [hq0, if_false]
        rw [if_neg (by omega), slice_eq (a := [58]) (b := p) (c := q) happ' (by simp) (by simp; omega)]
        simp only [bind_ok]
        by_cases hpo : portOK p = true
        · rw [if_pos hpo, if_pos hpo]
          simp only [bind_ok]
          rw [if_pos ?_]
          · have hss : slice (58 :: r) ((p.length + 1 : Nat) : Int) (58 :: r).length = .ok q :=
              slice_suffix (a := 58 :: p) (by rw [happ]; simp) (by simp)
            simp only [List.length_cons] at hss
            rw [hss]
            simp only [bind_ok]
          · refine ⟨by omega, ?_⟩
            have hl := congrArg List.length happ
            have := List.length_pos_iff.2 hq0
            simp at hl; omega
        · rw [if_neg hpo, if_neg hpo]; rfl
    · have hps : isPathStart c = true := by
        have := ha c r rfl
        simpa [isHostEnd, hc] using this
      simp only [hc, if_false, bind_ok, List.takeWhile_cons, List.dropWhile_cons, hps, Bool.not_true,
        Bool.false_eq_true, reduceCtorEq, List.length_nil]
      rw [if_pos (by refine ⟨by simp, ?_⟩; simp; omega), slice_eq (a := []) (b := c :: r) (c := []) (by simp) (by simp) (by simp)]
      simp only [bind_ok]
      cases u; simp_all

/-! ## Bounds of the walk -/

theorem labelL_bounds {node l isLast k endK o} (h : labelL node l isLast k endK = .stop o)
    (he : ∀ e, endK = some e → e < k) :
    o.prev = k ∧ k ≤ o.start ∧ o.start ≤ o.sep ∧ o.sep ≤ k + 1 ∧ ∀ e, o.endK = some e → e < o.sep := by
  unfold labelL at h
  split at h
  · injection h with h; subst h
    split
    · exact ⟨rfl, by simp, by simp, by simp, fun e h => he e h⟩
    · exact ⟨rfl, by simp, by simp, by simp, fun e h => by have := he e h; simp; omega⟩
  · split at h
    · injection h with h; subst h
      exact ⟨rfl, by simp, by simp, by simp, fun e h => he e h⟩
    · simp only at h
      split at h
      · injection h with h; subst h
        refine ⟨rfl, by simp, by simp, by simp, fun e h => ?_⟩
        simp only at h ⊢
        split at h
        · injection h with h; omega
        · have := he e h; omega
      · simp at h

theorem labelL_next {node l isLast k endK val endK'} (h : labelL node l isLast k endK = .next val endK') :
    isLast = false ∧ node.get (b! "*") = none ∧ node.get (unescapeOrEmpty l) = some val ∧
      endK' = (if endK = none ∧ val.isEnd = true then some k else endK) ∧ val.kids.length ≠ 0 := by
  unfold labelL at h
  split at h
  · simp at h
  · rename_i hs
    split at h
    · simp at h
    · rename_i val' hv
      simp only at h
      split at h
      · simp at h
      · rename_i hn
        injection h with h1 h2
        subst h1
        refine ⟨?_, hs, hv, h2.symm, fun hc => hn (.inl hc)⟩
        cases isLast
        · rfl
        · exact absurd (.inr rfl) hn

theorem walkL_bounds {node ls k endK o} (h : walkL node ls k endK = some o) (hne : ls ≠ [])
    (he : ∀ e, endK = some e → e < k) :
    k ≤ o.prev ∧ o.prev < k + ls.length ∧ o.prev ≤ o.start ∧ o.start ≤ o.sep ∧ o.sep ≤ o.prev + 1 ∧
      ∀ e, o.endK = some e → e < o.sep := by
  induction ls generalizing node k endK with
  | nil => exact absurd rfl hne
  | cons l ls ih =>
    rw [walkL] at h
    split at h
    · simp at h
    · split at h
      · rename_i o' ho
        injection h with h; subst h
        obtain ⟨h1, h2, h3, h4, h5⟩ := labelL_bounds ho he
        simp only [List.length_cons]
        exact ⟨by omega, by omega, by omega, by omega, by omega, h5⟩
      · rename_i val e' hn
        obtain ⟨h1, -, -, h4, -⟩ := labelL_next hn
        have hls : ls ≠ [] := by simpa using h1
        have := ih h hls (by
          intro e hee
          rw [h4] at hee
          split at hee
          · injection hee with hee; omega
          · have := he e hee; omega)
        simp only [List.length_cons]
        exact ⟨by omega, by omega, by omega, by omega, by omega, this.2.2.2.2.2⟩

/-! ## The host -/

/-- Text before label `k`'s separator, i.e. everything up to label `k`, if there is one. -/
def sub (h : Bytes) (rt : List SepLabel) (ignore : Bool) (k : Nat) : Bytes :=
  if ignore = false ∧ k ≤ rt.length then pre h rt k else []

/-- The text checked for invalid characters. -/
def checkedText (h : Bytes) (rt : List SepLabel) (o : Out) : Bytes :=
  match o.endK with
  | none => pre h rt o.prev
  | some _ => if o.sep ≤ rt.length then pre h rt o.start else joinR h rt

/-- The components of a host name. -/
def nameParts (h : Bytes) (rt : List SepLabel) (ignore : Bool) (o : Out) (u : ExtractResult) :
    ExtractResult :=
  match o.endK with
  | none => { u with domain := lab h rt (leadEmpty rt), subDomain := sub h rt ignore (leadEmpty rt + 1) }
  | some e =>
    if o.sep ≤ rt.length then
      { u with suffix := seg h rt e o.sep, domain := lab h rt o.sep,
               registeredDomain := seg h rt e (o.sep + 1), subDomain := sub h rt ignore (o.sep + 1) }
    else { u with suffix := pre h rt e }

/-- Everything after the host text is final. -/
def hostF (trie : Trie) (ignore : Bool) (netloc : Bytes) (u : ExtractResult) :
    ExtractResult × Option Err :=
  let h := (hostSplit netloc).1
  let rt := (hostSplit netloc).2
  match walkL trie (labels h rt (leadEmpty rt)) (leadEmpty rt) none with
  | none => (u, some .consecutiveSeparators)
  | some o =>
    if isIPv4B netloc then
      ({ u with hostType := .iPv4, domain := pre h rt o.prev, registeredDomain := pre h rt o.prev }, none)
    else if hasInvalidChars (checkedText h rt o) then (u, some .invalidCharacters)
    else
      let v := nameParts h rt ignore o u
      if v.domain = [] then (v, some .emptyDomain) else ({ v with hostType := .hostName }, none)

/-- An IPv4 text has at least seven bytes and starts with a digit. -/
theorem Spec.IsIPv4.shape {s : Bytes} (h : IsIPv4 s) :
    s.length ≥ 7 ∧ ∃ c t, s = c :: t ∧ isDigit c = true := by
  obtain ⟨q, t, ⟨a, b, c, d, r1, r2, r3, ha, hb, hc, hd, h1, h2, h3, rfl⟩, ht, rfl⟩ := h
  rw [isOctet_iff] at ha hb hc hd
  have la := List.length_pos_iff.2 ha.1
  have lb := List.length_pos_iff.2 hb.1
  have lc := List.length_pos_iff.2 hc.1
  have ld := List.length_pos_iff.2 hd.1
  have e1 := encode_length r1
  have e2 := encode_length r2
  have e3 := encode_length r3
  refine ⟨by simp; omega, ?_⟩
  cases a with
  | nil => exact absurd rfl ha.1
  | cons x a => exact ⟨x, _, rfl, ha.2.1 x (by simp)⟩

theorem liftGo_ok {α : Type} (a : α) : liftGo (.ok a) = (.ok a : M α) := rfl

theorem stageIPv4_eq (netloc : Bytes) (w : Walk) (u : ExtractResult) (d : Bytes)
    (hd : slice netloc 0 w.previousSepIdx = .ok d) :
    stageIPv4 netloc w u = .ok (if isIPv4B netloc then
      some { u with hostType := .iPv4, domain := d, registeredDomain := d } else none) := by
  unfold stageIPv4
  by_cases h4 : isIPv4B netloc = true
  · obtain ⟨h7, c, t, rfl, hc⟩ := ((isIPv4B_iff _).1 h4).shape
    rw [if_pos h7, index_zero, bind_ok, contains_numeric, if_pos hc, isIPv4B_ok, bind_ok, if_pos h4, hd,
      bind_ok, if_pos h4]
  · rw [if_neg h4]
    split
    · rename_i h7
      cases netloc with
      | nil => simp at h7
      | cons c t =>
        rw [index_zero, bind_ok, isIPv4B_ok]
        split
        · rw [bind_ok, if_neg h4]
        · rfl
    · rfl

theorem stageNames_eq {h : Bytes} {rt : List SepLabel} (g : GoodR h rt) {w : Walk} {o : Out} (u : ExtractResult)
    (hw : WalkRel h rt (pos h rt (leadEmpty rt)) w o) (hb : ∀ e, o.endK = some e → e < o.sep)
    (hs : o.sep ≤ rt.length + 1) (w' : Walk)
    (hw' : w' = if w.sepIdx = -1 then
      { w with sepIdx := (joinR h rt).length, suffixStartIdx := (joinR h rt).length } else w)
    (e : URLParams) (hu : u.subDomain = []) :
    (stageNames (joinR h rt) w' u >>= fun r => stageSubDomain e (joinR h rt) r.2 r.1)
      = .ok (nameParts h rt e.ignoreSubDomains o u) := by
  obtain ⟨h1, h2, h3, h4⟩ := hw
  have hsd : ∀ (v : ExtractResult) (k : Nat), v.subDomain = [] →
      stageSubDomain e (joinR h rt) (pos h rt k) v = .ok { v with subDomain := sub h rt e.ignoreSubDomains k } := by
    intro v k hv
    unfold stageSubDomain sub
    by_cases hi : e.ignoreSubDomains = true
    · simp [hi]; cases v; simp_all
    · by_cases hk : k ≤ rt.length
      · have : pos h rt k ≠ -1 := by rw [pos_le hk]; omega
        simp only [hi, hk, Bool.not_false, this, ne_eq, not_false_eq_true, decide_true, Bool.and_self, if_true,
          and_self]
        rw [slice_pre hk, bind_ok]
      · rw [pos_gt (by omega)]
        simp [hk]; cases v; simp_all
  have hfields : w'.hasSuffix = w.hasSuffix ∧ w'.suffixEndIdx = w.suffixEndIdx ∧ w'.previousSepIdx = w.previousSepIdx := by
    rw [hw']; split <;> simp
  unfold stageNames nameParts
  cases hk : o.endK with
  | none =>
    have hle := leadEmpty_le rt
    rw [hfields.1, h1, hk]
    simp only [Option.isSome_none, Bool.false_eq_true, if_false]
    rw [hfields.2.1, h4 hk, slice_pre hle, bind_ok, labelSeparators_eq, lastIndexAny_pre g hle, bind_ok]
    rcases Nat.lt_or_ge (leadEmpty rt) rt.length with hlt | hge
    · have hpne : pos h rt (leadEmpty rt + 1) ≠ -1 := by rw [pos_le (by omega)]; omega
      obtain ⟨c, hc1, hc2⟩ := index_sep g (show leadEmpty rt < leadEmpty rt + 1 by omega) (show leadEmpty rt + 1 ≤ rt.length by omega)
      rw [if_pos hpne, hc1, bind_ok, bind_ok, hc2, bind_ok, seg_one, bind_ok]
      exact hsd _ _ hu
    · rw [if_neg (by simp [pos_gt (show rt.length < leadEmpty rt + 1 by omega)]), bind_ok, slice_pre hle, bind_ok,
        pre_eq_head hge, lab_eq_head hge, bind_ok]
      exact hsd _ _ hu
  | some en =>
    obtain ⟨g1, g2, g3⟩ := h3 en hk
    have hen := hb en hk
    rw [hfields.1, h1, hk]
    simp only [Option.isSome_some, if_true]
    by_cases hsep : o.sep ≤ rt.length
    · have hwe : w' = w := by
        rw [hw', if_neg]; rw [g3, pos_le hsep]; omega
      subst hwe
      have hlt : w'.sepIdx < ((joinR h rt).length : Int) := by
        have := pre_length_lt (h := h) (a := 0) (b := o.sep) (rt := rt) (by omega) hsep
        rw [pre_zero] at this
        rw [g3, pos_le hsep]; omega
      obtain ⟨c, hc1, hc2⟩ := index_sep g hen hsep
      rw [if_pos hlt, if_pos hsep, g3, hc1, bind_ok, g1, hc2, bind_ok, slice_pre hsep, bind_ok, labelSeparators_eq,
        lastIndexAny_pre g hsep, bind_ok]
      rcases Nat.lt_or_ge o.sep rt.length with hlt2 | hge
      · have hpne : pos h rt (o.sep + 1) ≠ -1 := by rw [pos_le (by omega)]; omega
        obtain ⟨c2, hd1, hd2⟩ := index_sep g (show o.sep < o.sep + 1 by omega) (show o.sep + 1 ≤ rt.length by omega)
        obtain ⟨c3, hd3, hd4⟩ := index_sep g (show en < o.sep + 1 by omega) (show o.sep + 1 ≤ rt.length by omega)
        rw [hd1] at hd3
        injection hd3 with hd3; subst hd3
        rw [if_pos hpne, hd1, bind_ok, hd2, bind_ok, hd4, bind_ok, seg_one, bind_ok]
        exact hsd _ _ hu
      · have hse : o.sep = rt.length := by omega
        rw [if_neg (by simp [pos_gt (show rt.length < o.sep + 1 by omega)]), slice_pre (by omega), bind_ok, bind_ok,
          pre_eq_head hge, lab_eq_head hge, hse, seg_all]
        exact hsd _ _ hu
    · have hs1 : o.sep = rt.length + 1 := by omega
      have hwm : w.sepIdx = -1 := by rw [g3, pos_gt (by omega)]
      rw [if_pos hwm] at hw'
      rw [if_neg (by rw [hw']; simp), if_neg hsep, hfields.2.1, g1, slice_pre (by omega), bind_ok, bind_ok]
      unfold stageSubDomain
      have h00 : slice (joinR h rt) 0 0 = .ok [] := slice_eq (a := []) (b := []) (c := joinR h rt) (by simp) (by simp) (by simp)
      cases e.ignoreSubDomains
      · simp only [Bool.not_false, ne_eq, show ¬ ((0 : Int) = -1) by omega, not_false_eq_true, decide_true, Bool.and_self, if_true, h00, bind_ok]
        cases u; simp_all
      · simp

theorem stageCheckChars_eq {h : Bytes} {rt : List SepLabel} {w : Walk} {o : Out} (u : ExtractResult)
    (hw : WalkRel h rt (pos h rt (leadEmpty rt)) w o) (hp : o.prev ≤ rt.length)
    (hs : o.start ≤ o.sep) (hs' : o.sep ≤ rt.length + 1) :
    stageCheckChars (joinR h rt) w u =
      if hasInvalidChars (checkedText h rt o) then fail u .invalidCharacters
      else .ok (if w.sepIdx = -1 then
        { w with sepIdx := (joinR h rt).length, suffixStartIdx := (joinR h rt).length } else w) := by
  obtain ⟨h1, h2, h3, h4⟩ := hw
  unfold stageCheckChars
  have key : slice (joinR h rt) 0 (if (if w.sepIdx = -1 then
        { w with sepIdx := (joinR h rt).length, suffixStartIdx := (joinR h rt).length } else w).hasSuffix = true
      then (if w.sepIdx = -1 then
        { w with sepIdx := (joinR h rt).length, suffixStartIdx := (joinR h rt).length } else w).suffixStartIdx
      else (if w.sepIdx = -1 then
        { w with sepIdx := (joinR h rt).length, suffixStartIdx := (joinR h rt).length } else w).previousSepIdx)
      = .ok (checkedText h rt o) := by
    unfold checkedText
    cases hk : o.endK with
    | none =>
      have hf : w.hasSuffix = false := by rw [h1, hk]; rfl
      have : (if w.sepIdx = -1 then
        { w with sepIdx := (joinR h rt).length, suffixStartIdx := (joinR h rt).length } else w).hasSuffix = false := by
        split <;> simp [hf]
      rw [this, if_neg (by simp)]
      have : (if w.sepIdx = -1 then
        { w with sepIdx := (joinR h rt).length, suffixStartIdx := (joinR h rt).length } else w).previousSepIdx
          = pos h rt o.prev := by split <;> simp [h2]
      rw [this, slice_pre hp]
    | some en =>
      obtain ⟨g1, g2, g3⟩ := h3 en hk
      have hf : w.hasSuffix = true := by rw [h1, hk]; rfl
      by_cases hsep : o.sep ≤ rt.length
      · rw [if_neg (show ¬ w.sepIdx = -1 by rw [g3, pos_le hsep]; omega), if_pos hf, if_pos hsep, g2, slice_pre (by omega)]
      · rw [if_pos (show w.sepIdx = -1 by rw [g3, pos_gt (by omega)])]
        rw [if_pos hf, if_neg hsep]
        exact slice_prefix (c := []) (by simp) (by simp)
  simp only
  rw [key]
  rfl

theorem stageHost_eq (trie : Trie) (e : URLParams) (netloc : Bytes) (u : ExtractResult) (hu : u.subDomain = []) :
    stageHost trie e netloc u =
      match hostF trie e.ignoreSubDomains netloc u with
      | (v, some er) => fail v er
      | (v, none) => .ok (v, none) := by
  have hj := hostSplit_join netloc
  have g := hostSplit_good netloc
  unfold hostF
  simp only
  generalize hh : (hostSplit netloc).1 = h at *
  generalize hr : (hostSplit netloc).2 = rt at *
  have hnl : netloc = joinR h rt := hj.symm
  clear hj
  subst hnl
  unfold stageHost
  simp only
  have hstart := walkLoop_start g u trie
  cases hL : walkL trie (labels h rt (leadEmpty rt)) (leadEmpty rt) none with
  | none =>
    rw [hL] at hstart
    simp only at hstart
    rw [hstart]; rfl
  | some o =>
    rw [hL] at hstart
    obtain ⟨w, hw1, hw2⟩ := hstart
    rw [hw1, bind_ok]
    have hle := leadEmpty_le rt
    obtain ⟨b1, b2, b3, b4, b5, b6⟩ := walkL_bounds hL (by simp [labels]) (by simp)
    have hlen : (labels h rt (leadEmpty rt)).length = rt.length - leadEmpty rt + 1 := by simp [labels]
    rw [hlen] at b2
    have hslice : slice (joinR h rt) 0 w.previousSepIdx = .ok (pre h rt o.prev) := by
      rw [hw2.2.1]; exact slice_pre (by omega)
    rw [stageIPv4_eq _ _ _ _ hslice, liftGo_ok, bind_ok]
    by_cases h4 : isIPv4B (joinR h rt) = true
    · simp only [h4, if_true]
    · simp only [h4, if_false, Bool.false_eq_true]
      rw [stageCheckChars_eq u hw2 (by omega) b4 (by omega)]
      by_cases hinv : hasInvalidChars (checkedText h rt o) = true
      · simp only [hinv, if_true]; rfl
      · simp only [hinv, if_false, Bool.false_eq_true, bind_ok]
        have hn := stageNames_eq g u hw2 b6 (by omega) _ rfl e hu
        generalize (if w.sepIdx = -1 then
          { w with sepIdx := (joinR h rt).length, suffixStartIdx := (joinR h rt).length } else w) = w' at hn ⊢
        cases hsn : stageNames (joinR h rt) w' u with
        | error f => rw [hsn] at hn; simp [bind_error] at hn
        | ok r =>
          rw [hsn, bind_ok] at hn
          rw [liftGo_ok, bind_ok, hn, liftGo_ok, bind_ok]
          by_cases hd : (nameParts h rt e.ignoreSubDomains o u).domain = []
          · simp [hd]
          · simp [hd]

/-! ## All of Extract -/

/-- White space removed at both ends. -/
def trimmed (s : Bytes) : Bytes := flat (trimToks whiteSpace .trimBoth (toks s))

/-- The host text used for matching, or an error. -/
def hostText (idna : Idna) (puny : Bool) (host : Bytes) : Except Err Bytes :=
  match queryUnescape host with
  | .error esc => .error (.badEscape esc)
  | .ok un =>
    if puny then .ok (formatAsPunycode idna un)
    else match idna.toUnicodeErr un with
      | some msg => .error (.idna msg)
      | none => .ok host

/-- A bracketed host. -/
def literalF (inner after : Bytes) (u : ExtractResult) : ExtractResult × Option Err :=
  if isIPv6B inner then
    if after ≠ [] ∧ (after.head?.map isHostEnd) ≠ some true then (u, some .trailingAfterIPv6)
    else
      let v := { u with hostType := .iPv6, domain := inner, registeredDomain := inner }
      match portPath after with
      | none => (v, some .invalidPort)
      | some p => ({ v with port := p.1, path := p.2 }, none)
  else (u, some .invalidIPv6)

/-- An unbracketed host. -/
def nameF (idna : Idna) (trie : Trie) (e : URLParams) (host after : Bytes) (u : ExtractResult) :
    ExtractResult × Option Err :=
  match portPath after with
  | none => (u, some .invalidPort)
  | some p =>
    let v := { u with port := p.1, path := p.2 }
    match hostText idna e.convertURLToPunyCode host with
    | .error er => (v, some er)
    | .ok netloc => hostF trie e.ignoreSubDomains netloc v

/-- `Extract` without indices. -/
def extractF (idna : Idna) (trie : Trie) (e : URLParams) : ExtractResult × Option Err :=
  let sch := schemeSplit (trimmed e.url)
  let usr := userSplit sch.2
  let u : ExtractResult := { scheme := sch.1, userInfo := usr.1 }
  match scanSplit usr.2 with
  | .bad er => (u, some er)
  | .literal inner after => literalF inner after u
  | .name host after => nameF idna trie e host after u

theorem head_indexAny (after : Bytes) (hne : after ≠ []) :
    (indexAnyASCII after endOfHostDelimitersSet ≠ 0) ↔ (after.head?.map isHostEnd) ≠ some true := by
  rw [indexAnyASCII_eq _ _ contains_hostEnd]
  cases after with
  | nil => exact absurd rfl hne
  | cons c r =>
    simp only [List.head?_cons, Option.map_some, List.takeWhile_cons, List.dropWhile_cons]
    by_cases hc : isHostEnd c = true
    · simp [hc]
    · simp [hc]
      split <;> omega

theorem stageSplit_name {s host after : Bytes} (hs : s = host ++ after) :
    stageSplit s (if after = [] then -1 else (host.length : Int)) = .ok (host, after) := by
  unfold stageSplit
  by_cases ha : after = []
  · subst ha; simp [hs]
  · simp only [ha, if_false]
    rw [if_pos (by omega), slice_suffix hs rfl, bind_ok, slice_prefix hs rfl, bind_ok]

theorem extractM_eq (idna : Idna) (trie : Trie) (e : URLParams) :
    extractM idna trie e =
      match extractF idna trie e with
      | (v, some er) => fail v er
      | (v, none) => .ok (v, none) := by
  unfold extractM extractF
  rw [fastTrim_eq, whitespace_eq]
  simp only [liftGo_ok, bind_ok]
  rw [show flat (trimToks whiteSpace .trimBoth (toks e.url)) = trimmed e.url from rfl]
  rw [stageScheme_eq _ _ rfl]
  simp only [liftGo_ok, bind_ok]
  rw [stageUserInfo_eq _ _ rfl]
  simp only [liftGo_ok, bind_ok]
  generalize (schemeSplit (trimmed e.url)).1 = sch
  generalize userSplit (schemeSplit (trimmed e.url)).2 = usr
  have hscan := scan_eq usr.2
  cases hsl : scanLoop usr.2.length usr.2 0 (-1) (-1) with
  | err er =>
    rw [hsl] at hscan
    simp only at hscan
    rw [hscan]
  | done o c hend =>
    rw [hsl] at hscan
    simp only at hscan ⊢
    rcases hscan with ⟨host, after, h1, h2, rfl, rfl, h5, h6⟩ | ⟨inner, after, h1, h2, rfl, h4, h5⟩
    · rw [h1]
      simp only
      rw [h5]
      have h6v : stageIPv6 usr.2 (-1) (-1) (if after = [] then -1 else (host.length : Int))
          { scheme := sch, userInfo := usr.1 } = .ok { scheme := sch, userInfo := usr.1 } := by
        unfold stageIPv6; rw [if_neg (by simp)]
      rw [h6v, bind_ok, stageSplit_name h2, liftGo_ok, bind_ok]
      simp only
      rw [stagePortPath_eq after _ rfl rfl h6]
      unfold nameF
      cases hpp : portPath after with
      | none => rfl
      | some p =>
        simp only [bind_ok]
        rw [if_neg (by simp)]
        unfold stageIdna hostText
        cases hq : queryUnescape host with
        | error esc => rfl
        | ok un =>
          simp only
          by_cases hpu : e.convertURLToPunyCode = true
          · simp only [hpu, if_true, bind_ok]
            rw [stageHost_eq _ _ _ _ rfl]
          · simp only [hpu, if_false, Bool.false_eq_true]
            cases hid : idna.toUnicodeErr un with
            | some msg => rfl
            | none =>
              simp only [bind_ok]
              rw [stageHost_eq _ _ _ _ rfl]
    · rw [h1]
      simp only
      rw [h5, h4]
      unfold stageIPv6
      rw [if_pos (by omega)]
      have hin : slice usr.2 1 ((inner.length : Int) + 1) = .ok inner :=
        slice_eq (a := [91]) (b := inner) (c := 93 :: after) (by rw [h2]; simp) (by simp) (by simp; omega)
      rw [hin, liftGo_ok, bind_ok, isIPv6B_ok, liftGo_ok, bind_ok]
      unfold literalF
      by_cases h6 : isIPv6B inner = true
      · simp only [h6, Bool.not_true, Bool.false_eq_true, if_false, if_true]
        have h2' : usr.2 = (91 :: (inner ++ [93])) ++ after := by rw [h2]; simp
        have hlen2 : ((inner.length : Int) + 2) = ((91 :: (inner ++ [93]) : Bytes).length : Int) := by simp; omega
        have hsplit : stageSplit usr.2 (if after = [] then -1 else (inner.length : Int) + 2)
            = .ok (91 :: (inner ++ [93]), after) := by
          rw [hlen2]; exact stageSplit_name h2'
        by_cases ha : after = []
        · subst ha
          simp only [if_true] at hsplit ⊢
          rw [if_neg (by simp), bind_ok, bind_ok, hsplit, liftGo_ok, bind_ok]
          simp only
          rw [stagePortPath_eq [] _ rfl rfl (by simp)]
          simp [portPath, bind_ok]
        · simp only [ha, if_false] at hsplit ⊢
          rw [if_pos (by omega), hlen2, slice_suffix h2' rfl, liftGo_ok, bind_ok]
          by_cases hhe : (after.head?.map isHostEnd) ≠ some true
          · rw [if_pos ((head_indexAny after ha).2 hhe), if_pos ⟨ha, hhe⟩]
            rfl
          · rw [if_neg (fun hc => hhe ((head_indexAny after ha).1 hc)), if_neg (fun hc => hhe hc.2), bind_ok, bind_ok,
              ← hlen2, hsplit, liftGo_ok, bind_ok]
            simp only
            have hhd : ∀ x t, after = x :: t → isHostEnd x = true := by
              rintro x t rfl
              simpa using hhe
            rw [stagePortPath_eq after _ rfl rfl hhd]
            cases hpp : portPath after with
            | none => rfl
            | some p => simp [bind_ok]
      · simp only [h6, Bool.not_false, if_true, Bool.false_eq_true, if_false]
        rfl

/-- The model of the code always returns, namely what `extractF` says. -/
theorem extract_eq (idna : Idna) (trie : Trie) (e : URLParams) :
    extract idna trie e = .ok (extractF idna trie e) := by
  unfold extract
  rw [extractM_eq]
  rcases extractF idna trie e with ⟨v, _ | er⟩ <;> rfl

end Fasttld
