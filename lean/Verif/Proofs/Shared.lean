import Verif.Spec.Shared
import Verif.Proofs.Torn

/-!
# Several processes with one cache file
-/

set_option linter.unusedSimpArgs false

namespace Fasttld.Shared
open Fasttld Spec

/-- What does not change: names, and the only list on offer. -/
structure Setting where
  tmp : Bytes
  loc : Bytes → Nat
  abs : Bytes → Option Bytes
  body : Bytes

/-- The place of the cache file. -/
def Setting.cache (s : Setting) : Nat := s.loc (s.tmp ++ b! "public_suffix_list.dat")

variable {s : Setting}

/-- Conditions on what is known of the cache file (`kn`: it exists and begins so) and the position in it. -/
abbrev Cond := Option Bytes → Nat → Prop

/-- The condition before a call that ensures the condition after it, whatever others do meanwhile. -/
def before (s : Setting) : {β : Type} → Op β → (β → Cond) → Cond
  | _, .tempDir, Q, kn, off => Q s.tmp kn off
  | _, .abs p, Q, kn, off => Q (match s.abs p with
      | some q => (q, true)
      | none => ([], false)) kn off
  | _, .stat _, Q, kn, off => ∀ a, Q a kn off
  | _, .now, Q, kn, off => ∀ a, Q a kn off
  | _, .readFile p, Q, kn, off => Q none kn off ∧ (s.loc p ≠ s.cache → ∀ c, Q (some c) kn off) ∧
      (s.loc p = s.cache → ∀ c, c <+: s.body → (∀ b, kn = some b → b <+: c) → Q (some c) (some c) off)
  | _, .openDir _, Q, kn, off => ∀ a, Q a kn off
  | _, .openWrite p, Q, kn, off => s.loc p = s.cache ∧ Q none kn off ∧ Q (some s.cache) (some (kn.getD [])) 0
  | _, .httpGet _, Q, kn, off => ∀ r, (∀ b, r = .status 200 b true → HasMarkers b → b = s.body) → Q r kn off
  | _, .seek _, Q, kn, off => Q true kn 0 ∧ Q false kn off
  | _, .write h b, Q, kn, off => h = s.cache ∧ b = s.body.drop off ∧ (∃ c, kn = some c ∧ off ≤ c.length) ∧
      (∀ kn' off', (∃ c, kn' = some c) → Q false kn' off') ∧ ∀ off', Q true (some s.body) off'

/-- The condition before a program that ensures the condition after it. -/
def wp (s : Setting) {α : Type} : Prog α → (α → Cond) → Cond
  | .ret a, Q => Q a
  | .call o k, Q => before s o (fun b => wp s (k b) Q)

theorem before_mono {β : Type} {o : Op β} {Q Q' : β → Cond} (h : ∀ b kn off, Q b kn off → Q' b kn off) {kn off}
    (hb : before s o Q kn off) : before s o Q' kn off := by
  cases o with
  | tempDir => exact h _ _ _ hb
  | abs p => exact h _ _ _ hb
  | stat p => exact fun a => h _ _ _ (hb a)
  | now => exact fun a => h _ _ _ (hb a)
  | readFile p => exact ⟨h _ _ _ hb.1, fun h1 c => h _ _ _ (hb.2.1 h1 c), fun h1 c h2 h3 => h _ _ _ (hb.2.2 h1 c h2 h3)⟩
  | openDir p => exact fun a => h _ _ _ (hb a)
  | openWrite p => exact ⟨hb.1, h _ _ _ hb.2.1, h _ _ _ hb.2.2⟩
  | httpGet u => exact fun r h1 => h _ _ _ (hb r h1)
  | seek f => exact ⟨h _ _ _ hb.1, h _ _ _ hb.2⟩
  | write f b => exact ⟨hb.1, hb.2.1, hb.2.2.1, fun kn off h1 => h _ _ _ (hb.2.2.2.1 kn off h1), fun off => h _ _ _ (hb.2.2.2.2 off)⟩

theorem wp_mono {α : Type} {p : Prog α} {Q Q' : α → Cond} (h : ∀ b kn off, Q b kn off → Q' b kn off) {kn off}
    (hb : wp s p Q kn off) : wp s p Q' kn off := by
  induction p generalizing kn off with
  | ret a => exact h _ _ _ hb
  | call o k ih => exact before_mono (fun b kn off => ih b) hb

theorem wp_bind {α γ : Type} {p : Prog α} {f : α → Prog γ} {Q : γ → Cond} {kn off}
    (h : wp s p (fun a => wp s (f a) Q) kn off) : wp s (p >>= f) Q kn off := by
  show wp s (p.bind f) Q kn off
  induction p generalizing kn off with
  | ret a => exact h
  | call o k ih => exact before_mono (fun b kn off => ih b) h

theorem wp_ask {β : Type} {o : Op β} {Q : β → Cond} {kn off} (h : before s o Q kn off) : wp s o.ask Q kn off := h

theorem wp_pure {α : Type} {a : α} {Q : α → Cond} {kn off} (h : Q a kn off) : wp s (pure a) Q kn off := h

/-! ## The programs -/

/-- The cache file is known to hold all section markers. -/
def Whole (kn : Option Bytes) : Prop := ∃ c, kn = some c ∧ HasMarkers c

theorem wp_trieConstruct_builtin {idna : Idna} {hard inc} {Q : Trie × Option SysErr → Cond} {kn off}
    (h : Q (trieOfText idna inc hard, none) kn off) : wp s (trieConstruct idna hard inc []) Q kn off := by
  unfold trieConstruct
  refine wp_bind ?_
  simp only [ne_eq, not_true, if_false]
  refine wp_pure ?_
  exact wp_pure h

theorem wp_newHardcodedPSL {idna : Idna} {hard n} {Q : FastTLD × Option SysErr → Cond} {kn off}
    (h : Q (⟨[], trieOfText idna n.includePrivateSuffix hard, n.includePrivateSuffix⟩, none) kn off) :
    wp s (newHardcodedPSL idna hard n) Q kn off := by
  unfold newHardcodedPSL
  exact wp_bind (wp_trieConstruct_builtin (wp_pure h))

/-- Reading the rules from the cache file. -/
theorem wp_trieConstruct {idna : Idna} {hard inc p} (hp : p ≠ []) (hl : s.loc p = s.cache) (hb : WellTerminated s.body)
    {Q : Trie × Option SysErr → Cond} {kn off} (hk : Whole kn) (h1 : ∀ kn off, Q (trieOfText idna inc s.body, none) kn off)
    (h2 : ∀ t err kn off, Q (t, some err) kn off) : wp s (trieConstruct idna hard inc p) Q kn off := by
  unfold trieConstruct
  simp only [ne_eq, hp, not_false_iff, if_true]
  refine wp_bind ?_
  unfold getPublicSuffixList
  refine wp_bind (wp_ask ⟨?_, fun h => absurd hl h, fun _ c hc hkn => ?_⟩)
  · exact wp_pure (wp_pure (h2 _ _ _ _))
  · refine wp_pure (wp_pure ?_)
    obtain ⟨b, rfl, hm⟩ := hk
    have hm' : HasMarkers c := fun m hm' => (hm m hm').trans (hkn b rfl).isInfix
    have := trieOfText_torn idna inc hb hc hm'
    unfold trieOfText at this
    simp only [this] 
    exact h1 _ _

theorem wp_trieConstruct_other {idna : Idna} {hard inc p} (hp : p ≠ [])
    {Q : Trie × Option SysErr → Cond} {kn off} (h1 : ∀ t err kn off, Q (t, err) kn off) :
    wp s (trieConstruct idna hard inc p) Q kn off := by
  unfold trieConstruct
  simp only [ne_eq, hp, not_false_iff, if_true]
  refine wp_bind ?_
  unfold getPublicSuffixList
  refine wp_bind (wp_ask ⟨?_, fun h c => ?_, fun _ c hc hkn => ?_⟩)
  · exact wp_pure (wp_pure (h1 _ _ _ _))
  · exact wp_pure (wp_pure (h1 _ _ _ _))
  · exact wp_pure (wp_pure (h1 _ _ _ _))

theorem wp_downloadFile {url} {Q : Option Bytes → Cond} {kn off} (h1 : Q none kn off)
    (h2 : ∀ b, (HasMarkers b → b = s.body) → Q (some b) kn off) : wp s (downloadFile url) Q kn off := by
  unfold downloadFile
  refine wp_bind (wp_ask fun r hr => ?_)
  cases r with
  | failed => exact wp_pure h1
  | status code body complete =>
    simp only
    split
    · rename_i hc
      subst hc
      cases complete with
      | false => exact wp_pure h1
      | true => exact wp_pure (h2 body (hr body rfl))
    · exact wp_pure h1

theorem wp_update {sources : List Bytes} {Q : Bool → Cond} {kn off} (hk : ∃ c, kn = some c)
    (h1 : ∀ kn off, (∃ c, kn = some c) → Q false kn off) (h2 : HasMarkers s.body → ∀ off, Q true (some s.body) off) :
    wp s (update s.cache sources) Q kn off := by
  induction sources generalizing kn off with
  | nil => exact wp_pure (h1 _ _ hk)
  | cons url rest ih =>
    rw [Fasttld.update]
    refine wp_bind (wp_downloadFile (ih hk) fun b hbody => ?_)
    simp only
    split
    · exact ih hk
    · rename_i hv
      have hm : HasMarkers b := by
        rw [← validPSLDelimiters_iff]; simpa using hv
      obtain rfl := hbody hm
      refine wp_bind (wp_ask ⟨?_, ?_⟩)
      · simp only [Bool.not_true, Bool.false_eq_true, if_false]
        refine wp_bind (wp_ask ⟨rfl, by simp, ?_, ?_, ?_⟩)
        · obtain ⟨c, rfl⟩ := hk
          exact ⟨c, rfl, Nat.zero_le _⟩
        · intro kn' off' hk'
          simp only [Bool.not_false, if_true]
          exact ih hk'
        · intro off'
          simp only [Bool.not_true, Bool.false_eq_true, if_false]
          exact wp_pure (h2 hm off')
      · simp only [Bool.not_false, if_true]
        exact ih hk

theorem wp_FastTLD_update {idna : Idna} {hard} {f : FastTLD} (hb : WellTerminated s.body)
    {Q : FastTLD × Option SysErr → Cond} {kn off} (h1 : ∀ err kn off, Q (f, some err) kn off)
    (h2 : ∀ kn off, Q ({ f with tldTrie := trieOfText idna f.includePrivateSuffix s.body, cacheFilePath := s.tmp ++ defaultPSLFileName }, none) kn off) :
    wp s (f.update idna hard) Q kn off := by
  unfold FastTLD.update
  refine wp_bind (wp_ask ?_)
  show wp s _ Q kn off
  simp only
  split
  · exact wp_pure (h1 _ _ _)
  · refine wp_bind (wp_ask ⟨rfl, ?_, ?_⟩)
    · exact wp_pure (h1 _ _ _)
    · simp only
      refine wp_bind (wp_update ⟨_, rfl⟩ (fun kn off _ => ?_) (fun hm off => ?_))
      · simp only [Bool.not_false, if_true]
        exact wp_pure (h1 _ _ _)
      · simp only [Bool.not_true, Bool.false_eq_true, if_false]
        refine wp_bind (wp_trieConstruct (by simp [defaultPSLFileName]) rfl hb ⟨_, rfl, hm⟩ (fun kn off => ?_) (fun t err kn off => ?_))
        · exact wp_pure (h2 _ _)
        · exact wp_pure (h1 _ _ _)


theorem wp_checkCacheFile {p} (hcoh : ∀ p q, s.abs p = some q → s.loc q = s.loc p) {Q : Bool × Int → Cond} {kn off}
    (h : ∀ v a kn', (v = true → s.loc (trimSpace p) = s.cache → Whole kn') → Q (v, a) kn' off) :
    wp s (checkCacheFile p) Q kn off := by
  have key : ∀ (q : Bytes) (ok : Bool), (ok = true → s.loc q = s.loc (trimSpace p)) → ∀ (st : Option FileInfo) (lm : Int),
      wp s (do
        let contents ← (Op.readFile q).ask
        let validDelimiters := contents.any validPSLDelimiters
        return (ok && st.any (fun info => !info.isDir) && validDelimiters, lm)) Q kn off := by
    intro q ok hq st lm
    refine wp_bind (wp_ask ⟨?_, fun hne c => ?_, fun heq c _ _ => ?_⟩)
    · exact wp_pure (h _ _ _ (by simp))
    · refine wp_pure (h _ _ _ fun hv hl => ?_)
      simp only [Bool.and_eq_true] at hv
      exact absurd ((hq hv.1.1).trans hl) hne
    · refine wp_pure (h _ _ _ fun hv _ => ⟨c, rfl, ?_⟩)
      simp only [Bool.and_eq_true] at hv
      exact (validPSLDelimiters_iff c).1 hv.2
  have key2 : ∀ (q : Bytes) (ok : Bool), (ok = true → s.loc q = s.loc (trimSpace p)) →
      wp s (do
        let stat ← (Op.stat q).ask
        let lastModified ← fileLastModified stat
        let contents ← (Op.readFile q).ask
        let validDelimiters := contents.any validPSLDelimiters
        return (ok && stat.any (fun info => !info.isDir) && validDelimiters, lastModified)) Q kn off := by
    intro q ok hq
    refine wp_bind (wp_ask fun st => ?_)
    cases st with
    | none => exact wp_bind (wp_pure (key q ok hq none 0))
    | some info => exact wp_bind (wp_bind (wp_ask fun now => wp_pure (key q ok hq (some info) _)))
  unfold checkCacheFile
  refine wp_bind (wp_ask ?_)
  show wp s _ Q kn off
  cases ha : s.abs (trimSpace p) with
  | none => exact key2 [] false (by simp)
  | some q => exact key2 q true (fun _ => hcoh _ _ ha)

/-- What New should give. -/
def DoneNew (s : Setting) (idna : Idna) (hard : Bytes) (n : SuffixListParams) (x : FastTLD) (err : Option SysErr) : Prop :=
  err = none ∧ (Serves idna x hard ∨ Serves idna x s.body ∨
    (x.cacheFilePath = n.cacheFilePath ∧ (trimSpace n.cacheFilePath = n.cacheFilePath → s.loc n.cacheFilePath ≠ s.cache)))

theorem wp_finishNew_cache {idna : Idna} {hard n} {f : FastTLD} (hb : WellTerminated s.body) (hp : f.cacheFilePath ≠ [])
    (hl : s.loc f.cacheFilePath = s.cache) (hi : f.includePrivateSuffix = n.includePrivateSuffix) {kn off} (hk : Whole kn) :
    wp s (finishNew idna hard n f) (fun r _ _ => DoneNew s idna hard n r.1 r.2) kn off := by
  unfold finishNew
  refine wp_bind (wp_trieConstruct hp hl hb hk (fun kn off => ?_) (fun t err kn off => ?_))
  · exact wp_pure ⟨rfl, .inr (.inl (by simp [Serves, hi]))⟩
  · exact wp_newHardcodedPSL ⟨rfl, .inl rfl⟩

theorem wp_finishNew_other {idna : Idna} {hard n} {f : FastTLD} (hp : f.cacheFilePath = n.cacheFilePath)
    (hi : f.includePrivateSuffix = n.includePrivateSuffix)
    (hl : n.cacheFilePath ≠ [] → trimSpace n.cacheFilePath = n.cacheFilePath → s.loc n.cacheFilePath ≠ s.cache) {kn off} :
    wp s (finishNew idna hard n f) (fun r _ _ => DoneNew s idna hard n r.1 r.2) kn off := by
  unfold finishNew
  by_cases hne : n.cacheFilePath = []
  · rw [hp, hne]
    exact wp_bind (wp_trieConstruct_builtin (wp_pure ⟨rfl, .inl (by simp [Serves, hi])⟩))
  · refine wp_bind (wp_trieConstruct_other (by rw [hp]; exact hne) (fun t err kn off => ?_))
    cases err with
    | some e => exact wp_newHardcodedPSL ⟨rfl, .inl rfl⟩
    | none => exact wp_pure ⟨rfl, .inr (.inr ⟨hp, hl hne⟩)⟩

theorem wp_new {idna : Idna} {hard n} (hb : WellTerminated s.body) (hcoh : ∀ p q, s.abs p = some q → s.loc q = s.loc p)
    (hs : trimSpace (s.tmp ++ defaultPSLFileName) = s.tmp ++ defaultPSLFileName) {kn off} :
    wp s (new idna hard n) (fun r _ _ => DoneNew s idna hard n r.1 r.2) kn off := by
  unfold new
  refine wp_bind (wp_checkCacheFile hcoh fun v a kn hv => ?_)
  cases v with
  | true =>
    simp only [if_true]
    by_cases h : n.cacheFilePath ≠ [] ∧ trimSpace n.cacheFilePath = n.cacheFilePath ∧ s.loc n.cacheFilePath = s.cache
    · exact wp_finishNew_cache hb h.1 h.2.2 rfl (hv rfl (by show s.loc (trimSpace n.cacheFilePath) = _; rw [h.2.1]; exact h.2.2))
    · exact wp_finishNew_other rfl rfl fun h1 h2 h3 => h ⟨h1, h2, h3⟩
  | false =>
    simp only [Bool.false_eq_true, if_false]
    refine wp_bind (wp_ask ?_)
    show wp s _ _ kn off
    refine wp_bind (wp_ask fun ok => ?_)
    cases ok with
    | false => exact wp_newHardcodedPSL ⟨rfl, .inl rfl⟩
    | true =>
      simp only [Bool.not_true, Bool.false_eq_true, if_false]
      refine wp_bind (wp_checkCacheFile hcoh fun v a kn hv => ?_)
      simp only
      split
      · refine wp_bind (wp_FastTLD_update hb (fun err kn off => ?_) (fun kn off => ?_))
        · exact wp_newHardcodedPSL ⟨rfl, .inl rfl⟩
        · exact wp_pure ⟨rfl, .inr (.inl rfl)⟩
      · rename_i hc
        simp only [Bool.or_eq_true, Bool.not_eq_true', not_or, Bool.not_eq_false] at hc
        exact wp_finishNew_cache hb (by simp [defaultPSLFileName]) rfl rfl
          (hv hc.1 (by show s.loc (trimSpace (s.tmp ++ defaultPSLFileName)) = _; rw [hs]; rfl))

/-! ## Steps -/

/-- The world is as the setting says. -/
structure Fits (s : Setting) (w : World) : Prop where
  tmp : w.tmp = s.tmp
  loc : w.loc = s.loc
  abs : w.absOf = s.abs
  offers : OnlyOffers w s.body
  cache : ∀ c, contentAt w s.cache = some (some c) → c <+: s.body

/-- What a process knows is true. -/
def Knows (s : Setting) (w : World) (kn : Option Bytes) : Prop :=
  ∀ b, kn = some b → ∃ c, contentAt w s.cache = some (some c) ∧ b <+: c

/-- The cache file only grows. -/
def Grows (s : Setting) (w w' : World) : Prop :=
  ∀ c, contentAt w s.cache = some (some c) → ∃ c', contentAt w' s.cache = some (some c') ∧ c <+: c'

theorem Knows.grow {w w' : World} {kn} (h : Knows s w kn) (hg : Grows s w w') : Knows s w' kn := by
  intro b hb
  obtain ⟨c, hc, hp⟩ := h b hb
  obtain ⟨c', hc', hp'⟩ := hg c hc
  exact ⟨c', hc', hp.trans hp'⟩

theorem Grows.refl {w : World} : Grows s w w := fun c hc => ⟨c, hc, List.prefix_refl c⟩

theorem contentAt_file {w : World} {i : Nat} {c : Bytes} (h : contentAt w i = some (some c)) :
    ∃ f, w.nodes i = some (.file f) ∧ f.content = c := by
  unfold contentAt at h
  split at h
  · cases h
  · cases h
  · rename_i f hf
    simp only [Option.some.injEq] at h
    exact ⟨f, hf, h⟩

theorem contentAt_of {w : World} {i : Nat} {f} (h : w.nodes i = some (.file f)) : contentAt w i = some (some f.content) := by
  simp [contentAt, h]

/-- Writing part of what is left of the list at the right place. -/
theorem writeAt_rest {body c : Bytes} {off n : Nat} (hc : c <+: body) (ho : off ≤ c.length) :
    c <+: writeAt c off ((body.drop off).take n) ∧ writeAt c off ((body.drop off).take n) <+: body ∧
    off + ((body.drop off).take n).length ≤ (writeAt c off ((body.drop off).take n)).length := by
  obtain ⟨t, rfl⟩ := hc
  have e : writeAt c off (((c ++ t).drop off).take n) =
      (c ++ t).take (off + (((c ++ t).drop off).take n).length) ++ c.drop (off + (((c ++ t).drop off).take n).length) := by
    unfold writeAt
    rw [Nat.sub_eq_zero_of_le ho, List.replicate_zero, List.append_nil, List.take_add]
    congr 1
    congr 1
    · rw [List.take_append_of_le_length ho]
    · simp [List.take_take]
  rw [e]
  generalize hm : off + (((c ++ t).drop off).take n).length = m
  have hle : m ≤ (c ++ t).length := by
    rw [← hm]; simp; omega
  by_cases h : m ≤ c.length
  · rw [List.take_append_of_le_length h, List.take_append_drop]
    exact ⟨List.prefix_refl c, List.prefix_append c t, h⟩
  · rw [List.drop_eq_nil_of_le (by omega), List.append_nil]
    refine ⟨?_, List.take_prefix _ _, by rw [List.length_take]; omega⟩
    rw [List.take_append]
    rw [List.take_of_length_le (by omega)]
    exact List.prefix_append _ _

theorem Fits.seen {w : World} {off} (h : Fits s w) : Fits s (seenBy w off) := ⟨h.tmp, h.loc, h.abs, h.offers, h.cache⟩

/-- The effect of a write of part of what is left of the list. -/
theorem put_rest {w : World} (hw : Fits s w) {n : Nat} {kn} (hk : Knows s w kn) (ho : ∃ c, kn = some c ∧ w.offset ≤ c.length) :
    Fits s (w.put s.cache ((s.body.drop w.offset).take n)) ∧ Grows s w (w.put s.cache ((s.body.drop w.offset).take n)) ∧
    (w.put s.cache ((s.body.drop w.offset).take n)).offset = w.offset + ((s.body.drop w.offset).take n).length ∧
    ∃ c, Knows s (w.put s.cache ((s.body.drop w.offset).take n)) (some c) ∧
      w.offset + ((s.body.drop w.offset).take n).length ≤ c.length ∧ c <+: s.body := by
  obtain ⟨b, rfl, ho⟩ := ho
  obtain ⟨c, hc, hbc⟩ := hk b rfl
  have hpre := hw.cache c hc
  obtain ⟨f, hf, rfl⟩ := contentAt_file hc
  obtain ⟨h1, h2, h3⟩ := writeAt_rest (n := n) hpre (Nat.le_trans ho hbc.length_le)
  have hcon : contentAt (w.put s.cache ((s.body.drop w.offset).take n)) s.cache =
      some (some (writeAt f.content w.offset ((s.body.drop w.offset).take n))) := by
    simp [contentAt, World.put, hf]
  refine ⟨⟨?_, ?_, ?_, ?_, ?_⟩, ?_, ?_, _, ?_, h3, h2⟩
  · simp [World.put, hf, hw.tmp]
  · simp [World.put, hf, hw.loc]
  · simp [World.put, hf, hw.abs]
  · have : (w.put s.cache ((s.body.drop w.offset).take n)).net = w.net := by simp [World.put, hf]
    unfold OnlyOffers Offers; rw [this]; exact hw.offers
  · intro d hd
    rw [hcon] at hd
    simp only [Option.some.injEq] at hd
    exact hd ▸ h2
  · intro d hd
    rw [hc] at hd
    simp only [Option.some.injEq] at hd
    exact ⟨_, hcon, hd ▸ h1⟩
  · simp [World.put, hf]
  · intro d hd
    simp only [Option.some.injEq] at hd
    exact ⟨_, hcon, hd ▸ List.prefix_refl _⟩

/-- One call. -/
theorem answer_sound {w : World} (hw : Fits s w) {β : Type} {o : Op β} {Q : β → Cond} {kn} (hk : Knows s w kn)
    (hb : before s o Q kn w.offset) :
    Fits s (o.answer w).2 ∧ Grows s w (o.answer w).2 ∧
    ∃ kn', Knows s (o.answer w).2 kn' ∧ Q (o.answer w).1 kn' (o.answer w).2.offset := by
  cases o with
  | tempDir =>
    refine ⟨hw, .refl, kn, hk, ?_⟩
    show Q w.tmp kn w.offset
    rw [hw.tmp]
    exact hb
  | abs p =>
    refine ⟨hw, .refl, kn, hk, ?_⟩
    have : before s (.abs p) Q kn w.offset := hb
    rw [before, ← hw.abs] at this
    exact this
  | stat p => exact ⟨hw, .refl, kn, hk, hb _⟩
  | now => exact ⟨hw, .refl, kn, hk, hb _⟩
  | openDir p => exact ⟨hw, .refl, kn, hk, hb _⟩
  | readFile p =>
    obtain ⟨h1, h2, h3⟩ := hb
    show Fits s w ∧ Grows s w w ∧ ∃ kn', Knows s w kn' ∧ Q (w.read p) kn' w.offset
    refine ⟨hw, .refl, ?_⟩
    cases hr : w.read p with
    | none => exact ⟨kn, hk, h1⟩
    | some c =>
      by_cases hl : s.loc p = s.cache
      · have hc : contentAt w s.cache = some (some c) := by
          rw [World.read, hw.loc, hl] at hr
          split at hr
          · rename_i f hf
            split at hr
            · simp only [Option.some.injEq] at hr
              rw [contentAt_of hf, hr]
            · cases hr
          · cases hr
        refine ⟨some c, ?_, h3 hl c (hw.cache c hc) ?_⟩
        · intro b hb
          cases hb
          exact ⟨c, hc, List.prefix_refl c⟩
        · intro b hb
          obtain ⟨d, hd, hp⟩ := hk b hb
          rw [hc] at hd
          cases hd
          exact hp
      · exact ⟨kn, hk, h2 hl c⟩
  | openWrite p =>
    obtain ⟨hl, h1, h2⟩ := hb
    show Fits s (w.openForWriting p).2 ∧ Grows s w (w.openForWriting p).2 ∧
      ∃ kn', Knows s (w.openForWriting p).2 kn' ∧ Q (w.openForWriting p).1 kn' (w.openForWriting p).2.offset
    unfold World.openForWriting
    rw [hw.loc, hl]
    cases hn : w.nodes s.cache with
    | none =>
      simp only
      split
      · have hkn : kn = none := by
          cases kn with
          | none => rfl
          | some b =>
            obtain ⟨c, hc, -⟩ := hk b rfl
            simp [contentAt, hn] at hc
        subst hkn
        refine ⟨⟨hw.tmp, rfl, hw.abs, hw.offers, ?_⟩, ?_, some [], ?_, h2⟩
        · intro c hc
          simp [contentAt] at hc
          rw [hc]; exact List.nil_prefix
        · intro c hc
          simp [contentAt, hn] at hc
        · intro b hb
          cases hb
          exact ⟨[], by simp [contentAt], List.prefix_refl _⟩
      · exact ⟨hw, .refl, kn, hk, h1⟩
    | some nd =>
      cases nd with
      | dir t => exact ⟨hw, .refl, kn, hk, h1⟩
      | file f =>
        simp only
        split
        · refine ⟨⟨hw.tmp, hw.loc, hw.abs, hw.offers, hw.cache⟩, fun c hc => ⟨c, hc, List.prefix_refl c⟩, _, ?_, h2⟩
          intro b hb
          cases kn with
          | none =>
            cases hb
            exact ⟨f.content, contentAt_of (w := w) hn, List.nil_prefix⟩
          | some d => exact hk b hb
        · exact ⟨hw, .refl, kn, hk, h1⟩
  | httpGet u => exact ⟨hw, .refl, kn, hk, hb _ fun b h1 h2 => hw.offers u b ⟨h1, h2⟩⟩
  | seek f =>
    have e : (Op.seek f).answer w = if w.seekWorks then (true, w.rewind) else (false, w) := rfl
    rw [e]
    split
    · exact ⟨⟨hw.tmp, hw.loc, hw.abs, hw.offers, hw.cache⟩, fun c hc => ⟨c, hc, List.prefix_refl c⟩, kn, hk, hb.1⟩
    · exact ⟨hw, .refl, kn, hk, hb.2⟩
  | write f b =>
    obtain ⟨rfl, rfl, h1, h2, h3⟩ := hb
    obtain ⟨g1, g2, g3, c, g4, g5, g6⟩ := put_rest hw (n := w.written (s.body.drop w.offset)) hk h1
    refine ⟨g1, g2, some c, g4, ?_⟩
    unfold Op.answer
    simp only
    cases hs : w.writeStops (s.body.drop w.offset) with
    | some k => exact h2 _ _ ⟨c, rfl⟩
    | none =>
      have hw' : w.written (s.body.drop w.offset) = (s.body.drop w.offset).length := by simp [World.written, hs]
      rw [hw'] at g5
      have hb : c = s.body := by
        refine g6.eq_of_length_le ?_
        simp at g5
        omega
      rw [← hb]
      rw [hb]
      exact h3 _

/-- What a process should have when it finishes. -/
def Done (s : Setting) (idna : Idna) (hard : Bytes) : Job → FastTLD → Option SysErr → Prop
  | .new n, x, err => DoneNew s idna hard n x err
  | .update f, x, err => (err = none ∧ Serves idna x s.body) ∨ (err ≠ none ∧ x = f)

/-- The invariant. -/
def Good (s : Setting) (idna : Idna) (hard : Bytes) (w : World) (p : Process) : Prop :=
  ∃ kn, Knows s w kn ∧ wp s p.prog (fun r _ _ => Done s idna hard p.job r.1 r.2) kn p.offset

theorem Good.grow {idna : Idna} {hard} {w w' : World} {p} (h : Good s idna hard w p) (hg : Grows s w w') : Good s idna hard w' p := by
  obtain ⟨kn, hk, h⟩ := h
  exact ⟨kn, hk.grow hg, h⟩

theorem step_grow {idna : Idna} {hard} (hb : WellTerminated s.body) (hcoh : ∀ p q, s.abs p = some q → s.loc q = s.loc p)
    (hs : trimSpace (s.tmp ++ defaultPSLFileName) = s.tmp ++ defaultPSLFileName) {x y : World × List Process}
    (h : Step idna hard (Undisturbed s.body) x y) (hw : Fits s x.1) (hp : ∀ p ∈ x.2, Good s idna hard x.1 p) :
    Fits s y.1 ∧ (∀ p ∈ y.2, Good s idna hard y.1 p) ∧ Grows s x.1 y.1 := by
  cases h with
  | @start w ps job =>
    refine ⟨hw, fun p hm => ?_, .refl⟩
    simp only [List.mem_append, List.mem_singleton] at hm
    rcases hm with hm | rfl
    · exact hp p hm
    · refine ⟨none, (fun b hb => by cases hb), ?_⟩
      cases job with
      | new n => exact wp_new hb hcoh hs
      | update f =>
        refine wp_FastTLD_update hb (fun err kn off => .inr ⟨by simp, rfl⟩) (fun kn off => .inl ⟨rfl, rfl⟩)
  | @call w a b job off β o k ans w' h =>
    obtain ⟨kn, hk, hq⟩ := hp ⟨job, .call o k, off⟩ (by simp)
    obtain ⟨h1, h2, kn', h3, h4⟩ := answer_sound (w := seenBy w off) hw.seen (kn := kn) hk hq
    rw [h] at h1 h2 h3 h4
    refine ⟨h1, fun p hm => ?_, h2⟩
    simp only [List.mem_append, List.mem_cons] at hm
    rcases hm with hm | rfl | hm
    · exact (hp p (by simp [hm])).grow h2
    · exact ⟨kn', h3, h4⟩
    · exact (hp p (by simp [hm])).grow h2
  | @piece w a b job off h body k w' n hw' =>
    obtain ⟨kn, hk, hq⟩ := hp ⟨job, .call (.write h body) k, off⟩ (by simp)
    obtain ⟨e1, e2, h1, h2, h3⟩ := hq
    simp only at e1 e2
    subst e1 e2
    obtain ⟨g1, g2, g3, c, g4, g5, g6⟩ := put_rest (w := seenBy w off) hw.seen (n := n) hk h1
    have e : (seenBy w off).offset = off := rfl
    rw [e] at g1 g2 g3 g4 g5
    rw [hw'] at g1 g2 g3 g4
    refine ⟨g1, fun p hm => ?_, g2⟩
    simp only [List.mem_append, List.mem_cons] at hm
    rcases hm with hm | rfl | hm
    · exact (hp p (by simp [hm])).grow g2
    · refine ⟨some c, g4, rfl, ?_, ⟨c, rfl, g3 ▸ g5⟩, h2, h3⟩
      show (s.body.drop off).drop n = s.body.drop w'.offset
      rw [g3, List.drop_drop, List.length_take, List.length_drop]
      by_cases hn : n ≤ s.body.length - off
      · rw [Nat.min_eq_left hn]
      · rw [List.drop_eq_nil_of_le (by omega), List.drop_eq_nil_of_le (by omega)]
    · exact (hp p (by simp [hm])).grow g2
  | @die w a p b => exact ⟨hw, fun q hm => hp q (by simp at hm ⊢; rcases hm with hm | hm <;> simp [hm]), .refl⟩
  | @other w w' ps h =>
    have hc : w.loc (defaultPath w) = s.cache := by
      show w.loc (w.tmp ++ _) = s.loc (s.tmp ++ _)
      rw [show w.loc = s.loc from hw.loc, show w.tmp = s.tmp from hw.tmp]
    have hcache := h.cache
    rw [hc] at hcache
    refine ⟨⟨h.tmp.trans hw.tmp, h.loc.trans hw.loc, h.abs.trans hw.abs, h.offers, fun c hc => hw.cache c (hcache ▸ hc)⟩,
      fun p hm => (hp p hm).grow fun c hc => ⟨c, hcache.trans hc, List.prefix_refl c⟩,
      fun c hc => ⟨c, hcache.trans hc, List.prefix_refl c⟩⟩

theorem Grows.trans {w w' w'' : World} (h : Grows s w w') (h' : Grows s w' w'') : Grows s w w'' := by
  intro c hc
  obtain ⟨d, hd, h1⟩ := h c hc
  obtain ⟨e, he, h2⟩ := h' d hd
  exact ⟨e, he, h1.trans h2⟩

theorem steps_grow {idna : Idna} {hard} (hb : WellTerminated s.body) (hcoh : ∀ p q, s.abs p = some q → s.loc q = s.loc p)
    (hs : trimSpace (s.tmp ++ defaultPSLFileName) = s.tmp ++ defaultPSLFileName) {x y : World × List Process}
    (h : Steps idna hard (Undisturbed s.body) x y) (hw : Fits s x.1) (hp : ∀ p ∈ x.2, Good s idna hard x.1 p) :
    Fits s y.1 ∧ (∀ p ∈ y.2, Good s idna hard y.1 p) ∧ Grows s x.1 y.1 := by
  induction h with
  | refl => exact ⟨hw, hp, .refl⟩
  | step _ h' ih =>
    obtain ⟨h1, h2, h3⟩ := step_grow hb hcoh hs h' ih.1 ih.2.1
    exact ⟨h1, h2, ih.2.2.trans h3⟩

theorem steps_sound {idna : Idna} {hard} (hb : WellTerminated s.body) (hcoh : ∀ p q, s.abs p = some q → s.loc q = s.loc p)
    (hs : trimSpace (s.tmp ++ defaultPSLFileName) = s.tmp ++ defaultPSLFileName) {x y : World × List Process}
    (h : Steps idna hard (Undisturbed s.body) x y) (hw : Fits s x.1) (hp : ∀ p ∈ x.2, Good s idna hard x.1 p) :
    Fits s y.1 ∧ ∀ p ∈ y.2, Good s idna hard y.1 p :=
  ⟨(steps_grow hb hcoh hs h hw hp).1, (steps_grow hb hcoh hs h hw hp).2.1⟩

end Fasttld.Shared
