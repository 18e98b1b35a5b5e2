import Verif.Proofs.FallbackPrivate
import Verif.Proofs.RefinesParts
import Verif.Proofs.InventoryDepth
import Verif.Props.FallbackLists

/-!
# C64: what a longer list changes, and what the private section of the built-in list changes
-/

set_option linter.unusedSimpArgs false

namespace Fasttld.Props
open Fasttld Fasttld.Spec Trie _root_.Fasttld.Inv

/-- Rules with other top-level labels make no difference. -/
theorem extract_below (idna : Idna) {rules rules' : List Bytes} (hs : ¬ PrefixAt rules [star]) (hs' : ¬ PrefixAt rules' [star]) (e : URLParams)
    {sch ui host after port path n first tail v : Bytes} {rest : List (Nat × Bytes)} {ds : List Bytes}
    (hA : Authority e.url sch ui (host ++ after)) (hp : IsPlainHost host) (haf : AfterHost after port path)
    (hn : HostTextOf idna e.convertURLToPunyCode host n) (hl : HostShape n first rest tail)
    (hv : LabelValues (fromRight first rest) (v :: ds)) (hb : SameBelow rules rules' v) :
    extract idna (buildTrie rules) e = extract idna (buildTrie rules') e := by
  rw [extract_plain idna _ e hA hp haf, extract_plain idna _ e hA hp haf, hostText_iff.2 hn]
  obtain ⟨l, ls, e1⟩ : ∃ l ls, fromRight first rest = l :: ls := by
    cases h : fromRight first rest with
    | nil => simp [fromRight] at h
    | cons l ls => exact ⟨l, ls, rfl⟩
  have e2 : unescapeOrEmpty l = v := by
    have := labelValues_iff.1 hv
    rw [e1] at this
    simp at this
    exact this.1.symm
  obtain ⟨ts, t1, t2, t3⟩ := hl.split
  have key : ∀ u, hostF (buildTrie rules) e.ignoreSubDomains n u = hostF (buildTrie rules') e.ignoreSubDomains n u := by
    intro u
    unfold hostF
    simp only [t1, t2, t3, e1]
    rw [walkL_local (rules' := rules') (by rw [e2]; exact hb) ?_ fun h => absurd h hs]
    intro p
    constructor
    · intro hr; exact absurd ⟨_, ⟨p, rfl⟩, hr⟩ hs
    · intro hr; exact absurd ⟨_, ⟨p, rfl⟩, hr⟩ hs'
  simp only [key]

/-- A host that a longer list can reject: with an empty label or one that ends in `-`, or all of it is matched. -/
def Rejectable (more : List Bytes) (n : Bytes) : Prop :=
  ∃ first rest tail ds, HostShape n first rest tail ∧ LabelValues (fromRight first rest) ds ∧
    ((first = [] ∨ encode 45 <:+ first) ∨ (∃ p ∈ rest, p.2 = [] ∨ encode 45 <:+ p.2) ∨
      PrefixAt more ds ∨ ∃ q l, ds = q ++ [l] ∧ PrefixAt more (q ++ [star]))

/-- `r` is a result for a host name, `r'` and `err` those with the longer list `more`: the same, or Suffix ends in what
was RegisteredDomain, or the host is rejected. -/
def AtMostLonger (idna : Idna) (more : List Bytes) (e : URLParams) (r r' : ExtractResult) (err : Option Err) : Prop :=
  r'.scheme = r.scheme ∧ r'.userInfo = r.userInfo ∧ r'.port = r.port ∧ r'.path = r.path ∧
  ((err = none ∧ r' = r) ∨
   (err = none ∧ r'.hostType = .hostName ∧ r.suffix ≠ [] ∧ EndsInLabels r'.suffix r.registeredDomain) ∨
   (err ≠ none ∧ ∃ host after n, Authority e.url r.scheme r.userInfo (host ++ after) ∧ IsPlainHost host ∧
      AfterHost after r.port r.path ∧ HostTextOf idna e.convertURLToPunyCode host n ∧ Rejectable more n))

/-- C64: a host name that is accepted with a list has, with a longer list, the same parts, or a Suffix that ends in the
former RegisteredDomain; or it is rejected, but only if it has an empty label or a label that ends in `-`, or if all of
it is matched in the longer list. -/
theorem C64_longer (idna : Idna) {rules more : List Bytes} (hR : Refines rules more) (e : URLParams) {r : ExtractResult}
    (h : extract idna (buildTrie rules) e = .ok (r, none)) (ht : r.hostType = .hostName) :
    ∃ r' err, extract idna (buildTrie more) e = .ok (r', err) ∧ AtMostLonger idna more e r r' err := by
  obtain ⟨host, after, n, first, rest, tail, ds, m, seen, cut, mark, H⟩ := accepted h ht
  have hlen := H.values.length
  have hls : (fromRight first rest).length = rest.length + 1 := fromRight_length ..
  obtain ⟨v, ds', hds⟩ : ∃ v ds', ds = v :: ds' := by
    cases ds with
    | nil => simp at hlen; omega
    | cons v ds' => exact ⟨v, ds', rfl⟩
  have hsame : extract idna (buildTrie rules) e = extract idna (buildTrie more) e →
      ∃ r' err, extract idna (buildTrie more) e = .ok (r', err) ∧ AtMostLonger idna more e r r' err :=
    fun he => ⟨r, none, by rw [← he]; exact h, rfl, rfl, rfl, rfl, .inl ⟨rfl, rfl⟩⟩
  have hns : ¬ PrefixAt rules [star] := fun h => hR.noTop (hR.prefix h)
  by_cases hsb : SameBelow rules more v
  · exact hsame (extract_below idna hns hR.noTop e H.authority H.plain H.after H.text H.shape (hds ▸ H.values) hsb)
  by_cases hpr : ¬ PrefixAt more [v]
  · refine absurd (fun p => ?_) hsb
    constructor
    · intro hr; exact absurd (hR.prefix ⟨_, ⟨p, rfl⟩, hr⟩) hpr
    · intro hr; exact absurd ⟨_, ⟨p, rfl⟩, hr⟩ hpr
  have hpr := Classical.not_not.1 hpr
  have hmk := (hR.top v hpr).resolve_right hsb
  have hpv : PrefixAt rules [v] := by
    rcases hmk with h1 | h1
    · exact h1.prefixAt
    · exact h1.prefix ⟨_, rfl⟩
  -- the first label from the right is followed
  have hm0 : m ≠ 0 := by
    rintro rfl
    cases H.stops with
    | unknown _ _ _ _ g => exact g (.inr (by simpa [hds] using hpv))
    | exception _ _ g => exact hns (by simpa using known_snoc.1 g)
    | wildcard _ _ g => exact hns (by simpa using known_snoc.1 g)
  have hmark : mark = some 0 := by
    have := mark_top hlen H.follows (t := v) (by rw [hds]; rfl) (fun _ => hmk) H.marks
    rwa [if_neg hm0] at this
  subst hmark
  -- the parts with the first list
  obtain ⟨sub, hparts, hsub⟩ := H.parts
  obtain ⟨t, hch, hok⟩ := H.checked
  have hP : ∃ front s l mo, rest = front ++ (s, l) :: mo ∧ mo.length + 1 = cut ∧ SubAndDomain first front sub r.domain ∧
      r.suffix = joinLabels l mo ∧ r.registeredDomain = joinLabels r.domain ((s, l) :: mo) := by
    have hne := H.domain
    generalize r.domain = dom at hparts hne ⊢
    generalize r.suffix = suf at hparts ⊢
    generalize r.registeredDomain = reg at hparts ⊢
    cases hparts with
    | @suffix front s l mo back _ _ _ _ e1 e2 e3 hsd =>
      obtain rfl := List.eq_nil_of_length_eq_zero e2
      exact ⟨front, s, l, mo, by simpa using e1, by omega, hsd, rfl, rfl⟩
    | suffixOnly => exact absurd rfl hne
  obtain ⟨front, s, l, mo, e1, e2, e3, e4, e5⟩ := hP
  have hcut : cut ≤ rest.length := by rw [e1]; simp; omega
  have hokm : HostCharsOK (textTo first rest m) := by
    cases hch with
    | noSuffix g => cases g
    | suffix => exact hok
    | suffixOnly _ g => exact absurd g (by simp only; omega)
  -- the result with the longer list
  have mk : ∀ {w x er}, Reading more (fromRight first rest) ds w → Judged e.ignoreSubDomains n first rest w x er →
      extract idna (buildTrie more) e = .ok ({ x with scheme := r.scheme, userInfo := r.userInfo, port := r.port, path := r.path }, er) :=
    fun hw hj => (C52_extract ..).2 ⟨_, _, _, _, H.authority, .name H.plain (afterHost_head H.after),
      .host H.after H.text ⟨first, rest, tail, ds, _, H.shape, H.values, hw, hj⟩⟩
  have rej : ∀ {w x er}, Reading more (fromRight first rest) ds w → Judged e.ignoreSubDomains n first rest w x (some er) →
      ((first = [] ∨ encode 45 <:+ first) ∨ (∃ p ∈ rest, p.2 = [] ∨ encode 45 <:+ p.2) ∨
        PrefixAt more ds ∨ ∃ q l, ds = q ++ [l] ∧ PrefixAt more (q ++ [star])) →
      ∃ r' err, extract idna (buildTrie more) e = .ok (r', err) ∧ AtMostLonger idna more e r r' err :=
    fun hw hj hx => ⟨_, _, mk hw hj, rfl, rfl, rfl, rfl, .inr (.inr ⟨by simp, host, after, n, H.authority, H.plain, H.after, H.text,
      first, rest, tail, ds, H.shape, H.values, hx⟩)⟩
  obtain ⟨w, hw⟩ : ∃ w, Reading more (fromRight first rest) ds w := by
    rw [labelValues_iff.1 H.values]
    exact ⟨_, reading_walk more (by simp [fromRight])⟩
  have hw' := hw
  cases hw with
  | @stuck m' f1 f2 f3 f4 =>
    refine rej hw' .consecutive (.inr (.inl ?_))
    obtain ⟨front', s', l', mo', g1, g2⟩ := split_at (rest := rest) (k := m' + 1) (by omega) (by omega)
    have := fromRight_get (first := first) (a := front') (b := mo') (s := s') (l := l')
    rw [← g1, show mo'.length = m' by omega, f3] at this
    exact ⟨(s', l'), by rw [g1]; simp, .inl (Option.some.inj this).symm⟩
  | @ends m' seen' cut' mark' f1 f2 f3 =>
    have hmm : m ≤ m' := hR.matched hlen H.follows (.inl ⟨_, _, f2⟩)
    have hcc : cut ≤ cut' := hR.cut hlen H.follows H.stops f1 f2
    have hmark' : mark' = some 0 := by
      have := mark_top hlen f1 (t := v) (by rw [hds]; rfl) (fun _ => hmk.imp (hR.rule _) hR.prefix) f3
      rwa [if_neg (by omega)] at this
    subst hmark'
    by_cases hbig : rest.length < cut'
    · -- all of the host
      have hall : PrefixAt more ds ∨ ∃ q l, ds = q ++ [l] ∧ PrefixAt more (q ++ [star]) := by
        have hle := f1.le
        have full : m' = rest.length + 1 → PrefixAt more ds := by
          intro hm
          have := f1.known
          rw [hm, List.take_of_length_le (by omega)] at this
          exact this.resolve_left (by rw [hds]; simp)
        cases f2 with
        | all => exact .inl (full (by omega))
        | unknown => exact .inl (full (by omega))
        | exception => exact .inl (full (by omega))
        | wildcard g1 _ g3 _ =>
          have hlt : m' < (fromRight first rest).length := (List.getElem?_eq_some_iff.1 g1).1
          refine .inr ⟨ds.take m', ds[m'], ?_, known_snoc.1 g3⟩
          have := List.take_append_drop m' ds
          rw [List.drop_eq_getElem_cons (by omega), List.drop_eq_nil_of_le (by omega)] at this
          exact this.symm
      by_cases hcn : HostCharsOK n
      · exact rej hw' (.noDomain H.not4 (.suffixOnly rfl hbig) hcn (.suffixOnly (front := rest) (back := []) (by simp) rfl hbig)) (.inr (.inr hall))
      · exact rej hw' (.invalid H.not4 (.suffixOnly rfl hbig) hcn) (.inr (.inr hall))
    · have hle : cut' ≤ rest.length := by omega
      have hchk : Checked n first rest ⟨m', seen', cut', some 0⟩ (textTo first rest m') := .suffix rfl hle
      by_cases hcm : ¬ HostCharsOK (textTo first rest m')
      · refine rej hw' (.invalid H.not4 hchk hcm) ?_
        have hy : encode 45 <:+ textTo first rest m' :=
          Classical.byContradiction fun hy => hcm (hostCharsOK_prefix hokm (textTo_prefix first rest hmm) hy)
        exact (textTo_hyphen hy).imp id .inl
      have hcm := Classical.not_not.1 hcm
      obtain ⟨front', s', l', mo', g1, g2⟩ := split_at (rest := rest) (k := cut') (by omega) hle
      obtain ⟨sub', dom', hsd⟩ := subAndDomain_exists first front'
      have hparts' : Parts first rest (some 0) cut' sub' dom' (joinLabels l' mo') (joinLabels dom' ((s', l') :: mo')) :=
        .suffix (back := []) (by simpa using g1) rfl (by omega) hsd
      by_cases hd : dom' = []
      · subst hd
        refine rej hw' (.noDomain H.not4 hchk hcm hparts') ?_
        rcases subAndDomain_mem hsd with g | ⟨p, g3, g4⟩
        · exact .inl (.inl g.symm)
        · exact .inr (.inl ⟨p, by rw [g1]; simp [g3], .inl g4⟩)
      · refine ⟨_, _, mk hw' (.name H.not4 hchk hcm hparts' hd), rfl, rfl, rfl, rfl, ?_⟩
        rcases Nat.eq_or_lt_of_le hcc with hc | hc
        · left
          refine ⟨rfl, ?_⟩
          have hll : mo.length = mo'.length := by omega
          obtain ⟨rfl, k⟩ := List.append_inj' (e1.symm.trans g1) (by simp [hll])
          obtain ⟨⟨rfl, rfl⟩, rfl⟩ : (s = s' ∧ l = l') ∧ mo = mo' := by simpa using k
          obtain ⟨k1, k2⟩ := subAndDomain_unique e3 hsd
          rw [← k1, ← k2, ← e4, ← e5, ← hsub]
          have : r = { r with hostType := .hostName } := by rw [← ht]
          exact this.symm
        · right; left
          refine ⟨rfl, rfl, ?_, ?_⟩
          · rw [e4]
            cases mo with
            | nil => intro hl; exact H.shape.last front s (by rw [e1, show l = [] from hl])
            | cons p mo =>
              obtain ⟨c, x⟩ := p
              simp [joinLabels, encode_ne_nil]
          · rw [e5]
            exact ends_longer (fun p hp => (H.shape.free.2 p (by rw [e1]; simp [hp])).1) (e1.symm.trans g1) (by omega) e3

/-! ## The built-in list -/

/-- A rule with the private section is a public one, or has two labels or more, of which the last is not `za`, and no public
rule is below its parent if it begins with `*.` or `!`. -/
theorem private_line {r : Bytes} (hr : r ∈ rulesIn (builtInParts true)) : r ∈ rulesIn (builtInParts false) ∨
    (46 ∈ r ∧ (revLabels r).head? ≠ some (b! "za") ∧ ∃ l s, 46 ∉ l ∧ r = l ++ 46 :: s ∧
      ((l = [42] ∨ l.head? = some 33) → 46 ∈ s ∧ ∀ r' ∈ rulesIn (builtInParts false), ¬ 46 :: s <:+ r')) := by
  obtain ⟨n, hn, h1, rfl⟩ := mem_rulesIn.1 hr
  rw [show builtInParts true = fallbackPublicParts ++ fallbackPrivateParts from rfl, List.flatten_append, List.mem_append] at hn
  rcases hn with hn | hn
  · exact .inl (mem_rulesIn.2 ⟨n, hn, h1, rfl⟩)
  · obtain ⟨h2, h3, l, p, h4, h5, h6⟩ := linePriv_sound (allOK_sound (parts := fallbackPrivateParts) apart n hn) h1
    refine .inr ⟨h2, by rwa [show unpack zaLine = b! "za" by decide +kernel] at h3, l, unpack p, h4, h5, fun hl => ⟨(h6 hl).2, fun r' hr' hs => ?_⟩⟩
    obtain ⟨a, e, ha⟩ := anc partsOK_public r' hr' _ hs
    rw [unpack_inj _ _ e, (h6 hl).1] at ha
    simp at ha

theorem good_no_bang {l : Bytes} (h : GoodLabel l) : l.head? ≠ some 33 := by
  intro h1
  cases l with
  | nil => simp at h1
  | cons c l =>
    obtain rfl : c = 33 := by simpa using h1
    exact h.chars.2.2.2.2 33 (by decide) (by decide) ⟨[], l, by simp [show encode 33 = [33] by decide]⟩

/-- `!` is only at the beginning of a rule. -/
theorem bang_rule {priv : Bool} {r : Bytes} (hr : r ∈ rulesIn (builtInParts priv)) {q : List Bytes} {l : Bytes}
    (h : q ++ [33 :: l] <+: revLabels r) : r.head? = some 33 ∧ revLabels r = q ++ [33 :: l] := by
  rcases (moreFacts_builtIn priv).labels r hr with ⟨s, rfl, hg⟩ | ⟨s, rfl, hg⟩ | hg
  · exfalso
    have hm := h.subset (List.mem_append_right q (List.mem_singleton.2 rfl))
    rw [star_labels, List.mem_append] at hm
    rcases hm with hm | hm
    · exact good_no_bang (hg _ hm) rfl
    · simp [star] at hm
  · obtain ⟨q', l', e1, e2⟩ := revLabels_bang s
    refine ⟨rfl, ?_⟩
    rw [e1] at h ⊢
    rcases List.prefix_concat_iff.1 h with h1 | h1
    · exact h1.symm
    · exfalso
      have hm := h1.subset (List.mem_append_right q (List.mem_singleton.2 rfl))
      exact good_no_bang (hg _ (by rw [e2]; exact List.mem_append_left _ hm)) rfl
  · exact absurd rfl (good_no_bang (hg _ (h.subset (List.mem_append_right q (List.mem_singleton.2 rfl)))))

theorem revLabels_inj {a b : Bytes} (h : revLabels a = revLabels b) : a = b := by
  rw [← join_revLabels a, h, join_revLabels]

theorem first_dot {a b s t : Bytes} (ha : 46 ∉ a) (hb : 46 ∉ b) (h : a ++ 46 :: s = b ++ 46 :: t) : b = a ∧ t = s := by
  induction a generalizing b with
  | nil =>
    cases b with
    | nil => simp at h; exact ⟨rfl, h.symm⟩
    | cons c b => simp at h; exact absurd (by simp [h.1]) hb
  | cons c a ih =>
    cases b with
    | nil => simp at h; exact absurd (by simp [h.1]) ha
    | cons c' b =>
      simp at h
      obtain ⟨rfl, rfl⟩ := ih (fun g => ha (by simp [g])) (fun g => hb (by simp [g])) h.2
      exact ⟨by rw [h.1], rfl⟩

variable {idna : Idna} {f : Bytes → Bytes} {before lines : List Bytes}

/-- C64: the private section of the built-in list is in harmony with the public one. -/
theorem C64_harmony (hb : BuiltIn false before) (hb' : BuiltIn true lines)
    (hf : ByLabel idna.toASCII f (lines.filter (fun t => decide (IsRuleLine t)))) :
    Refines (rulesOf idna.toASCII before) (rulesOf idna.toASCII lines) := by
  have hst := C54_no_top_star hb' hf
  have htop := fun x => C54_top hb' hf (x := x)
  have hfA := byLabel_used hb' hf
  rw [builtIn_rules _ hb'] at hst htop ⊢
  rw [builtIn_rules _ hb]
  have hsub : ∀ r ∈ rulesIn (builtInParts false), r ∈ rulesIn (builtInParts true) := by
    intro r hr
    obtain ⟨n, hn, h1, h2⟩ := mem_rulesIn.1 hr
    refine mem_rulesIn.2 ⟨n, ?_, h1, h2⟩
    rw [show builtInParts true = fallbackPublicParts ++ fallbackPrivateParts from rfl, List.flatten_append, List.mem_append]
    exact .inl hn
  have hfP : ByLabel idna.toASCII f (rulesIn (builtInParts false)) := ⟨hfA.ascii, hfA.other, fun r hr => hfA.rule r (hsub r hr)⟩
  -- nothing is below the parent
  have closed : ∀ {s : Bytes}, (∀ b ∈ s, b < 128) → ¬ b! "xn--" <:+: s → (∀ r' ∈ rulesIn (builtInParts false), ¬ 46 :: s <:+ r') →
      ∀ x, ¬ PrefixAt ((rulesIn (builtInParts false)).flatMap (contributes idna.toASCII)) (revLabels s ++ [x]) := by
    intro s ha hx hc x hp
    have below : ∀ {r : Bytes} {y : Bytes}, r ∈ rulesIn (builtInParts false) → ¬ revLabels s ++ [y] <+: revLabels r := by
      rintro r y hr ⟨u, hu⟩
      rw [List.append_assoc] at hu
      obtain ⟨v, hv⟩ : ∃ v, r = v ++ 46 :: s := by
        obtain ⟨s', t, h1, h2, -⟩ := revLabels_prefix hu.symm (revLabels_ne_nil s) (by simp)
        exact ⟨t, by rw [h1, revLabels_inj h2]⟩
      exact hc r hr ⟨v, hv.symm⟩
    obtain ⟨r, hr, h | h⟩ := (prefix_iff hfP).1 hp
    · exact below hr h
    · obtain ⟨p0, h0, e⟩ := prefix_map h
      obtain ⟨a0, y, rfl, e1, e2⟩ := List.map_eq_append_iff.1 e.symm
      obtain ⟨y, rfl, -⟩ := List.map_eq_singleton_iff.1 e2
      have : a0 = revLabels s := map_back' hfP (fun l hl hp => hx (hp.isInfix.trans (label_infix hl))) e1
      subst this
      exact below hr h0
  refine ⟨?_, ?_, ?_, ?_, hst⟩
  · intro p hp
    obtain ⟨r, hr, h⟩ := (rule_iff hfP).1 hp
    exact (rule_iff hfA).2 ⟨r, hsub r hr, h⟩
  · intro q hq
    obtain ⟨s, hs, rfl⟩ := star_rules (facts_builtIn true) hfA hq
    rcases private_line hs with h | ⟨-, -, l, s', h1, h2, h3⟩
    · exact .inl ((prefix_iff hfP).2 ⟨_, h, .inl (by rw [star_labels]; exact List.prefix_rfl)⟩)
    · obtain ⟨rfl, rfl⟩ := first_dot (a := [42]) (by decide) h1 h2
      have ha := (facts_builtIn true).ascii _ hs
      exact .inr (closed ha.1 ha.2 (h3 (.inl rfl)).2)
  · intro q l hq hl
    -- an exception and where its labels are
    obtain ⟨r, hr, a0, ha, hlab⟩ : ∃ r ∈ rulesIn (builtInParts true), ∃ a0, (q = a0 ∨ (q = a0.map f ∧ f (33 :: l) = 33 :: l)) ∧ a0 ++ [33 :: l] <+: revLabels r := by
      obtain ⟨r, hr, h | h⟩ := (prefix_iff hfA).1 hl
      · exact ⟨r, hr, q, .inl rfl, h⟩
      · obtain ⟨p0, h0, e⟩ := prefix_map h
        obtain ⟨a0, y, rfl, e1, e2⟩ := List.map_eq_append_iff.1 e.symm
        obtain ⟨y, rfl, e3⟩ := List.map_eq_singleton_iff.1 e2
        have ey := map_eq hfA (x := 33 :: l) (by simp [List.cons_prefix_cons]) e3
        rw [ey] at h0 e3
        exact ⟨r, hr, a0, .inr ⟨e1.symm, e3⟩, h0⟩
    obtain ⟨h33, hlab⟩ := bang_rule hr hlab
    rcases private_line hr with h | ⟨-, -, l1, s, h1, h2, h3⟩
    · rcases ha with rfl | ⟨rfl, hfl⟩
      · exact (prefix_iff hfP).2 ⟨r, h, .inl (by rw [hlab]; exact List.prefix_rfl)⟩
      · exact (prefix_iff hfP).2 ⟨r, h, .inr (by rw [hlab, List.map_append, List.map_singleton, hfl]; exact List.prefix_rfl)⟩
    · exfalso
      have hl1 : l1.head? = some 33 := by
        cases l1 with
        | nil => rw [h2] at h33; simp at h33
        | cons c l1 => rw [h2] at h33; simpa using h33
      have hc := (h3 (.inr hl1)).2
      have ha0 : a0 = revLabels s := by
        rw [h2, revLabels_dot, revLabels_single h1] at hlab
        exact (List.append_inj' hlab rfl).1.symm
      obtain ⟨s', hs', e⟩ := star_rules (facts_builtIn false) hfP hq
      have hasc := (facts_builtIn false).ascii _ hs'
      have : revLabels s' = revLabels s := by
        rcases ha with rfl | ⟨rfl, -⟩
        · rw [e, ha0]
        · rw [← ha0]
          exact (map_back' hfP (fun l hl hp => hasc.2 (hp.isInfix.trans (label_infix hl))) e.symm).symm
      rw [revLabels_inj this] at hs'
      exact hc _ hs' ⟨[42], rfl⟩
  · intro t ht
    by_cases hza : t = b! "za"
    · subst hza
      refine .inr fun p => ⟨fun h => ?_, fun h => ?_⟩
      · obtain ⟨r, hr, h⟩ := (rule_iff hfP).1 h
        exact (rule_iff hfA).2 ⟨r, hsub r hr, h⟩
      · obtain ⟨r, hr, h⟩ := (rule_iff hfA).1 h
        rcases private_line hr with h1 | ⟨-, h1, -⟩
        · exact (rule_iff hfP).2 ⟨r, h1, h⟩
        · exfalso
          apply h1
          rcases h with h | h
          · rw [← h]; rfl
          · cases hl : revLabels r with
            | nil => exact absurd hl (revLabels_ne_nil r)
            | cons x xs =>
              rw [hl, List.map_cons, List.cons.injEq] at h
              rw [List.head?_cons, map_eq hfA (x := b! "za") (by decide) h.1.symm]
    · left
      rcases htop t hza ht with h | h
      · left
        obtain ⟨r, hr, h⟩ := (rule_iff hfA).1 h
        rcases private_line hr with h1 | ⟨h1, -, -⟩
        · exact (rule_iff hfP).2 ⟨r, h1, h⟩
        · exfalso
          have : (revLabels r).length = 1 := by
            rcases h with h | h
            · rw [← h]; rfl
            · have := congrArg List.length h
              simpa using this.symm
          rw [revLabels_length] at this
          exact absurd (List.count_pos_iff.2 h1) (by omega)
      · right
        obtain ⟨s, hs, e⟩ := star_rules (facts_builtIn true) hfA (a := [t]) h
        rcases private_line hs with h1 | ⟨-, -, l, s', h1, h2, h3⟩
        · exact (prefix_iff hfP).2 ⟨_, h1, .inl (by rw [star_labels, e]; exact List.prefix_rfl)⟩
        · exfalso
          obtain ⟨rfl, rfl⟩ := first_dot (a := [42]) (by decide) h1 h2
          have := revLabels_length s'
          rw [e, List.length_singleton] at this
          exact absurd (List.count_pos_iff.2 (h3 (.inl rfl)).1) (by omega)

/-- C64, for the built-in list: with the private section a host name has the same parts as without, or a Suffix that ends
in the former RegisteredDomain, or it is rejected for one of the reasons above. -/
theorem C64_private (hb : BuiltIn false before) (hb' : BuiltIn true lines)
    (hf : ByLabel idna.toASCII f (lines.filter (fun t => decide (IsRuleLine t)))) (e : URLParams) {r : ExtractResult}
    (h : extract idna (trieOfText idna false hardcodedPSL) e = .ok (r, none)) (ht : r.hostType = .hostName) :
    ∃ r' err, extract idna (trieOfText idna true hardcodedPSL) e = .ok (r', err) ∧
      AtMostLonger idna (rulesOf idna.toASCII lines) e r r' err := by
  rw [builtIn_trie idna hb] at h
  rw [builtIn_trie idna hb']
  exact C64_longer idna (C64_harmony hb hb' hf) e h ht

/-- C64: addresses have the same parts with and without the private section. -/
theorem C64_addresses (hb : BuiltIn false before) (hb' : BuiltIn true lines)
    (hf : ByLabel idna.toASCII f (lines.filter (fun t => decide (IsRuleLine t)))) (e : URLParams) {r : ExtractResult}
    (ht : r.hostType ≠ .hostName) : extract idna (trieOfText idna false hardcodedPSL) e = .ok (r, none) ↔
      extract idna (trieOfText idna true hardcodedPSL) e = .ok (r, none) := by
  have hR := C64_harmony hb hb' hf
  have hno : ∀ o, IsOctet o → ¬ PrefixAt (rulesOf idna.toASCII lines) [o] := fun o ho => C61_no_octet hb' hf ho
  rw [builtIn_trie idna hb, builtIn_trie idna hb']
  generalize rulesOf idna.toASCII lines = A at *
  generalize rulesOf idna.toASCII before = B at *
  have hno' : ∀ o, IsOctet o → ¬ PrefixAt B [o] := fun o ho h => hno o ho (hR.prefix h)
  have key : ∀ {P Q : List Bytes}, ¬ PrefixAt P [star] → ¬ PrefixAt Q [star] → (∀ o, IsOctet o → ¬ PrefixAt P [o]) →
      (∀ o, IsOctet o → ¬ PrefixAt Q [o]) → extract idna (buildTrie P) e = .ok (r, none) →
      extract idna (buildTrie Q) e = .ok (r, none) := by
    intro P Q s1 s2 o1 o2 h
    obtain ⟨sch, ui, a, part, hA, hat, hfin⟩ := (C52_extract ..).1 h
    cases hfin with
    | ipv6 h1 h2 => exact (C52_extract ..).2 ⟨sch, ui, a, _, hA, hat, .ipv6 h1 h2⟩
    | @host host after port path n r' _ haf htx hres =>
      obtain ⟨first, rest, tail, ds, w, hsh, hlv, hrd, hj⟩ := hres
      obtain ⟨hpl, rfl⟩ : IsPlainHost host ∧ a = host ++ after := by
        cases hat with
        | name h1 _ => exact ⟨h1, rfl⟩
      cases hj with
      | name => simp at ht
      | ipv4 h4 =>
        obtain ⟨q, t, ⟨a, b, c, d, r1, r2, r3, ha, hb, hc, hd, h1, h2, h3, rfl⟩, hm, rfl⟩ := h4
        obtain ⟨hsh', hval⟩ := quad_labels ha hb hc hd h1 h2 h3 hm
        obtain ⟨rfl, rfl, rfl⟩ := hsh.unique hsh'
        obtain rfl := hval ds hlv
        rw [← extract_below idna s1 s2 e hA hpl haf htx hsh hlv fun p => ?_]
        · exact h
        · constructor
          · intro hr; exact absurd ⟨_, ⟨p, rfl⟩, hr⟩ (o1 d hd)
          · intro hr; exact absurd ⟨_, ⟨p, rfl⟩, hr⟩ (o2 d hd)
  have hns : ¬ PrefixAt B [star] := fun h => hR.noTop (hR.prefix h)
  exact ⟨key hns hR.noTop hno' hno, key hR.noTop hns hno hno'⟩

/-- The conclusions of C64_longer, with `a.com` and `*.b.com` added to `com`: the same, longer, longer by a wildcard, and
rejected for each of the reasons. -/
example : ∀ x ∈ ([(b! "x.y.com", { subDomain := b! "x", domain := b! "y", suffix := b! "com", registeredDomain := b! "y.com", hostType := .hostName }, none,
        { subDomain := b! "x", domain := b! "y", suffix := b! "com", registeredDomain := b! "y.com", hostType := .hostName }),
      (b! "x.a.com", { subDomain := b! "x", domain := b! "a", suffix := b! "com", registeredDomain := b! "a.com", hostType := .hostName }, none,
        { domain := b! "x", suffix := b! "a.com", registeredDomain := b! "x.a.com", hostType := .hostName }),
      (b! "x.y.b.com", { subDomain := b! "x.y", domain := b! "b", suffix := b! "com", registeredDomain := b! "b.com", hostType := .hostName }, none,
        { domain := b! "x", suffix := b! "y.b.com", registeredDomain := b! "x.y.b.com", hostType := .hostName }),
      (b! "a.com", { domain := b! "a", suffix := b! "com", registeredDomain := b! "a.com", hostType := .hostName }, some .emptyDomain,
        { suffix := b! "a.com" }),
      (b! "y.b.com", { subDomain := b! "y", domain := b! "b", suffix := b! "com", registeredDomain := b! "b.com", hostType := .hostName }, some .emptyDomain,
        { suffix := b! "y.b.com" }),
      (b! "x-.a.com", { subDomain := b! "x-", domain := b! "a", suffix := b! "com", registeredDomain := b! "a.com", hostType := .hostName }, some .invalidCharacters, {}),
      (b! "x.｡b.com", { subDomain := b! "x.", domain := b! "b", suffix := b! "com", registeredDomain := b! "b.com", hostType := .hostName }, some .consecutiveSeparators, {})]
      : List (Bytes × ExtractResult × Option Err × ExtractResult)),
    extract idId (buildTrie [b! "com"]) ⟨x.1, false, false⟩ = .ok (x.2.1, none) ∧
    extract idId (buildTrie [b! "com", b! "a.com", b! "*.b.com"]) ⟨x.1, false, false⟩ = .ok (x.2.2.2, x.2.2.1) := by
  decide +kernel

/-- The conditions are needed: a new wildcard beside older rules, a new exception from an older wildcard, and a new rule
whose top-level label was not a rule shorten or move Suffix. -/
example : ∀ x ∈ ([([b! "com", b! "a.b.com"], b! "*.com", b! "x.a.b.com", b! "a.b.com", b! "b.com"),
      ([b! "com", b! "*.com"], b! "!a.com", b! "x.a.com", b! "a.com", b! "com"),
      ([b! "a.com"], b! "com", b! "x.a.com", b! "a", b! "a.com")] : List (List Bytes × Bytes × Bytes × Bytes × Bytes)),
    ((extract idId (buildTrie x.1) ⟨x.2.2.1, false, false⟩).map fun y => (y.1.suffix, y.2)) = .ok (x.2.2.2.1, none) ∧
    ((extract idId (buildTrie (x.1 ++ [x.2.1])) ⟨x.2.2.1, false, false⟩).map fun y => (y.1.suffix, y.2)) = .ok (x.2.2.2.2, none) := by
  decide +kernel

end Fasttld.Props
