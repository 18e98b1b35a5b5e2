import Verif.Proofs.Literal

/-!
# The host part of a result does not depend on the rest
-/

set_option linter.unusedSimpArgs false

namespace Fasttld
open Spec

/-- Scheme, userinfo, port and path of `u`, the rest of `v`. -/
def withFront (u v : ExtractResult) : ExtractResult :=
  { v with scheme := u.scheme, userInfo := u.userInfo, port := u.port, path := u.path }

/-- No host part yet. -/
def NoHost (u : ExtractResult) : Prop :=
  u.subDomain = [] ∧ u.domain = [] ∧ u.suffix = [] ∧ u.registeredDomain = [] ∧ u.hostType = .none

theorem NoHost.eq {u : ExtractResult} (h : NoHost u) : u = withFront u {} := by
  obtain ⟨h1, h2, h3, h4, h5⟩ := h
  cases u; simp only at h1 h2 h3 h4 h5; subst h1 h2 h3 h4 h5; rfl

theorem nameParts_front {h : Bytes} {rt : List SepLabel} {ig : Bool} {o : Out} {u : ExtractResult} (hu : NoHost u) :
    nameParts h rt ig o u = withFront u (nameParts h rt ig o {}) := by
  rw [hu.eq]
  unfold nameParts
  split
  · rfl
  · split <;> rfl

/-- The host part is computed from the host text alone. -/
theorem hostF_front {trie : Trie} {ig : Bool} {n : Bytes} {u : ExtractResult} (hu : NoHost u) :
    hostF trie ig n u = (withFront u (hostF trie ig n {}).1, (hostF trie ig n {}).2) := by
  unfold hostF
  simp only
  split
  · simp [← hu.eq]
  · split
    · obtain ⟨h1, h2, h3, h4, h5⟩ := hu
      simp [withFront, h1, h3]
    · split
      · simp [← hu.eq]
      · rw [nameParts_front hu]
        have : ∀ v, (withFront u v).domain = v.domain := fun v => rfl
        rw [this]
        split
        · rfl
        · rfl

/-- Only the sub-domain depends on `IgnoreSubDomains`. -/
theorem nameParts_ignore {h : Bytes} {rt : List SepLabel} {o : Out} {u : ExtractResult} (hu : u.subDomain = []) :
    nameParts h rt true o u = { nameParts h rt false o u with subDomain := [] } := by
  unfold nameParts sub
  split
  · simp
  · split
    · simp
    · cases u; simp only at hu; subst hu; rfl

theorem hostF_ignore {trie : Trie} {n : Bytes} {u : ExtractResult} (hu : u.subDomain = []) :
    hostF trie true n u = ({ (hostF trie false n u).1 with subDomain := [] }, (hostF trie false n u).2) := by
  have hu' : { u with subDomain := [] } = u := by cases u; simp only at hu; subst hu; rfl
  unfold hostF
  simp only
  split
  · simp [hu']
  · split
    · simp [hu]
    · split
      · simp [hu']
      · rw [nameParts_ignore hu]
        simp only
        split <;> rfl

/-- A host that is accepted. -/
theorem hostF_ok {trie : Trie} {ig : Bool} {n : Bytes} {u r : ExtractResult} :
    hostF trie ig n u = (r, none) ↔
      ∃ o, walkL trie (labels (hostSplit n).1 (hostSplit n).2 (leadEmpty (hostSplit n).2))
          (leadEmpty (hostSplit n).2) none = some o ∧
        ((IsIPv4 n ∧ r = { u with hostType := .iPv4, domain := pre (hostSplit n).1 (hostSplit n).2 o.prev,
                                  registeredDomain := pre (hostSplit n).1 (hostSplit n).2 o.prev }) ∨
         (¬ IsIPv4 n ∧ hasInvalidChars (checkedText (hostSplit n).1 (hostSplit n).2 o) = false ∧
            (nameParts (hostSplit n).1 (hostSplit n).2 ig o u).domain ≠ [] ∧
            r = { nameParts (hostSplit n).1 (hostSplit n).2 ig o u with hostType := .hostName })) := by
  rw [← isIPv4B_iff]
  unfold hostF
  simp only
  cases hw : walkL trie (labels (hostSplit n).1 (hostSplit n).2 (leadEmpty (hostSplit n).2))
          (leadEmpty (hostSplit n).2) none with
  | none => simp
  | some o =>
    simp only [Option.some.injEq, exists_eq_left']
    by_cases h4 : isIPv4B n = true
    · simp only [h4, if_true, Prod.mk.injEq, and_true, true_and, not_true, false_and, or_false]
      exact eq_comm
    · simp only [h4, if_false, false_and, false_or, not_false_iff, true_and, Bool.false_eq_true]
      by_cases hi : hasInvalidChars (checkedText (hostSplit n).1 (hostSplit n).2 o) = true
      · simp [hi]
      · simp only [hi, if_false, Bool.false_eq_true]
        by_cases hd : (nameParts (hostSplit n).1 (hostSplit n).2 ig o u).domain = []
        · simp [hd]
        · simp only [hd, if_false, Prod.mk.injEq, and_true, true_and, ne_eq, not_false_iff, Bool.false_eq_true, false_and, false_or]
          exact eq_comm

/-- A failure in the host part leaves the host type unset. -/
theorem hostF_err {trie : Trie} {ig : Bool} {n : Bytes} {u r : ExtractResult} {er : Err}
    (hu : u.hostType = .none) (h : hostF trie ig n u = (r, some er)) : r.hostType = .none := by
  unfold hostF at h
  simp only at h
  have key : ∀ h rt ig o, (nameParts h rt ig o u).hostType = .none := by
    intro h rt ig o
    unfold nameParts
    split
    · exact hu
    · split <;> exact hu
  split at h
  · simp only [Prod.mk.injEq] at h; rw [← h.1]; exact hu
  · split at h
    · simp at h
    · split at h
      · simp only [Prod.mk.injEq] at h; rw [← h.1]; exact hu
      · split at h
        · simp only [Prod.mk.injEq] at h; rw [← h.1]; exact key _ _ _ _
        · simp at h

/-- The whole result, given where the parts of the URL are, for a host without brackets. -/
theorem extract_plain (idna : Idna) (trie : Trie) (e : URLParams) {sch ui host after port path : Bytes}
    (h : Authority e.url sch ui (host ++ after)) (hp : IsPlainHost host) (ha : AfterHost after port path) :
    extract idna trie e = .ok
      (match hostText idna e.convertURLToPunyCode host with
       | .error er => ({ scheme := sch, userInfo := ui, port := port, path := path }, some er)
       | .ok n => (withFront { scheme := sch, userInfo := ui, port := port, path := path }
            (hostF trie e.ignoreSubDomains n {}).1, (hostF trie e.ignoreSubDomains n {}).2)) := by
  rw [extract_authority idna trie e h, scanSplit_name_iff.2 ⟨rfl, hp, afterHost_head ha⟩]
  simp only
  unfold nameF
  rw [(portPath_iff (afterHost_head ha)).2 ha]
  simp only
  cases hostText idna e.convertURLToPunyCode host with
  | error er => rfl
  | ok n =>
    simp only
    rw [hostF_front (u := { scheme := sch, userInfo := ui, port := port, path := path }) ⟨rfl, rfl, rfl, rfl, rfl⟩]

/-- The ways `Extract` can succeed. -/
theorem extract_ok (idna : Idna) (trie : Trie) (e : URLParams) {r : ExtractResult}
    (h : extract idna trie e = .ok (r, none)) :
    ∃ a, Authority e.url r.scheme r.userInfo a ∧
      ((∃ after, a = 91 :: (r.domain ++ 93 :: after) ∧ IsIPv6 IsIPv4 r.domain ∧ AfterHost after r.port r.path ∧
          r.hostType = .iPv6 ∧ r.registeredDomain = r.domain ∧ r.subDomain = [] ∧ r.suffix = []) ∨
       (∃ host after n, a = host ++ after ∧ IsPlainHost host ∧ AfterHost after r.port r.path ∧
          hostText idna e.convertURLToPunyCode host = .ok n ∧ hostF trie e.ignoreSubDomains n {} =
            ({ r with scheme := [], userInfo := [], port := [], path := [] }, none))) := by
  obtain ⟨sch, ui, a, hA⟩ := authority_exists e.url
  have h0 := h
  rw [extract_authority idna trie e hA] at h
  injection h with h
  split at h
  · simp at h
  · rename_i inner after hs
    rw [literalF_ok] at h
    obtain ⟨h6, port, path, haf, rfl⟩ := h
    refine ⟨a, hA, .inl ⟨after, ?_, h6, haf, rfl, rfl, rfl, rfl⟩⟩
    exact ((scanSplit_literal_iff (isIPv6_no_brackets h6)).1 hs).1
  · rename_i host after hs
    obtain ⟨ha, hp, hhd⟩ := scanSplit_name_iff.1 hs
    unfold nameF at h
    cases hpp : portPath after with
    | none => rw [hpp] at h; simp at h
    | some p =>
      obtain ⟨p, q⟩ := p
      have haf := (portPath_iff hhd).1 hpp
      subst ha
      rw [extract_plain idna trie e hA hp haf] at h0
      injection h0 with h0
      split at h0
      · simp at h0
      · rename_i n hn
        simp only [Prod.mk.injEq] at h0
        obtain ⟨h1, h2⟩ := h0
        subst h1
        refine ⟨_, hA, .inr ⟨host, after, n, rfl, hp, haf, hn, ?_⟩⟩
        generalize hx : hostF trie e.ignoreSubDomains n {} = x at h2 ⊢
        obtain ⟨v, er⟩ := x
        simp only at h2
        subst h2
        -- the front fields of `v` are empty
        obtain ⟨o, -, ⟨-, rfl⟩ | ⟨-, -, -, rfl⟩⟩ := hostF_ok.1 hx
        · rfl
        · simp only [Prod.mk.injEq, and_true, withFront]
          unfold nameParts
          split
          · rfl
          · split <;> rfl

end Fasttld
