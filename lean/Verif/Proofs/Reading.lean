import Verif.Proofs.Complete

/-!
# Extract computes what its specification says: labels and rules
-/

set_option linter.unusedSimpArgs false

namespace Fasttld
open Spec Trie

theorem labelValues_iff {ls ds : List Bytes} : LabelValues ls ds ↔ ds = ls.map unescapeOrEmpty := by
  have one : ∀ l d, (Decodes l d ∨ (BadEscape l ∧ d = [])) ↔ d = unescapeOrEmpty l := by
    intro l d
    have hb := decodes_iff_not_bad l
    cases h : queryUnescape l with
    | ok r =>
      have hr := (queryUnescape_iff l r).1 h
      rw [unescapeOrEmpty_of hr]
      constructor
      · rintro (h | ⟨h, -⟩)
        · exact h.unique hr
        · exact absurd h (hb.1 ⟨r, hr⟩)
      · rintro rfl; exact .inl hr
    | error e =>
      have hn : ¬ ∃ r, Decodes l r := by
        rintro ⟨r, hr⟩
        rw [← queryUnescape_iff, h] at hr
        simp at hr
      have he : unescapeOrEmpty l = [] := by unfold unescapeOrEmpty; rw [h]
      rw [he]
      have : BadEscape l := Classical.byContradiction fun hc => hn (hb.2 hc)
      constructor
      · rintro (h | ⟨-, h⟩)
        · exact absurd ⟨d, h⟩ hn
        · exact h
      · rintro rfl; exact .inr ⟨this, rfl⟩
  induction ls generalizing ds with
  | nil => cases ds <;> simp [LabelValues]
  | cons l ls ih =>
    cases ds with
    | nil => simp [LabelValues]
    | cons d ds => simp [LabelValues, one, ih]

theorem take_path (ls : List Bytes) (m : Nat) : (ls.map unescapeOrEmpty).take m = path ls m := by
  simp [path, List.map_take]

/-- A walk that stopped before a label had longer rules in front of it. -/
theorem walkL_open {node : Trie} {ls : List Bytes} {k : Nat} {endK : Option Nat} {o : Out}
    (h : walkL node ls k endK = some o) (hne : ls ≠ []) {m : Nat} (hp : o.prev = k + m) (hs : o.start = k + m) :
    m = 0 ∨ ∃ x, node.has (path ls m ++ [x]) := by
  induction ls generalizing node k endK m with
  | nil => exact absurd rfl hne
  | cons l ls ih =>
    rw [walkL] at h
    split at h
    · simp at h
    split at h
    · rename_i o' ho
      injection h with h; subst h
      left
      unfold labelL at ho
      split at ho
      · injection ho with ho; subst ho; simp at hp; omega
      · split at ho
        · injection ho with ho; subst ho; simp at hp; omega
        · simp only at ho
          split at ho
          · injection ho with ho; subst ho; simp at hp hs; omega
          · simp at ho
    · rename_i val e' hn
      obtain ⟨h1, -, hv, -, hk⟩ := labelL_next hn
      have hls : ls ≠ [] := by simpa using h1
      have hget : ∀ p, node.has (unescapeOrEmpty l :: p) ↔ val.has p := by
        intro p; rw [has_cons, hv]; simp
      have hb := walkL_spec h hls
      obtain ⟨j, -, j1, -⟩ := hb
      right
      obtain ⟨m', rfl⟩ : ∃ m', m = m' + 1 := ⟨m - 1, by omega⟩
      rw [path_cons]
      rcases ih h hls (m := m') (by omega) (by omega) with h0 | ⟨x, hx⟩
      · subst h0
        have : ¬ ∀ x, val.get x = none := fun hc => hk ((kids_empty_iff val).2 hc)
        obtain ⟨x, hx⟩ : ∃ x, val.get x ≠ none := Classical.not_forall.1 this
        refine ⟨x, ?_⟩
        rw [path_zero, List.cons_append, List.nil_append, hget, has_cons]
        cases hg : val.get x with
        | none => exact absurd hg hx
        | some v => exact ⟨v, rfl, has_nil v⟩
      · refine ⟨x, ?_⟩
        rw [List.cons_append, hget]
        exact hx

/-- A walk that fails meets an empty label. -/
theorem walkL_none {node : Trie} {ls : List Bytes} {k : Nat} {endK : Option Nat}
    (h : walkL node ls k endK = none) :
    ∃ m, m + 1 < ls.length ∧ ls[m]? = some [] ∧ node.has (path ls m) ∧ (∀ j < m, ¬ node.has (path ls j ++ [star])) ∧
      (∀ j < m, j + 1 < ls.length → ls[j]? ≠ some []) ∧ (m = 0 ∨ ∃ x, node.has (path ls m ++ [x])) := by
  induction ls generalizing node k endK with
  | nil => simp [walkL] at h
  | cons l ls ih =>
    rw [walkL] at h
    split at h
    · rename_i hc
      obtain ⟨rfl, hc⟩ := hc
      refine ⟨0, ?_, rfl, by rw [path_zero]; exact has_nil _, by simp, by simp, .inl rfl⟩
      have := List.length_pos_iff.2 hc
      simp; omega
    rename_i hc
    split at h
    · simp at h
    · rename_i val e' hn
      obtain ⟨h1, hst, hv, -, hk⟩ := labelL_next hn
      have hls : ls ≠ [] := by simpa using h1
      have hget : ∀ p, node.has (unescapeOrEmpty l :: p) ↔ val.has p := by
        intro p; rw [has_cons, hv]; simp
      obtain ⟨m, m1, m2, m3, m4, m5, m6⟩ := ih h
      refine ⟨m + 1, by simp; omega, by simpa using m2, by rw [path_cons, hget]; exact m3, ?_, ?_, .inr ?_⟩
      · intro j hj
        cases j with
        | zero =>
          rw [path_zero, List.nil_append, has_cons]
          rintro ⟨v, hv', -⟩
          rw [star, hst] at hv'
          simp at hv'
        | succ j => rw [path_cons, List.cons_append, hget]; exact m4 j (by omega)
      · intro j hj hj2
        cases j with
        | zero =>
          simp only [List.getElem?_cons_zero, ne_eq, Option.some.injEq]
          intro hl
          exact hc ⟨hl, hls⟩
        | succ j => simpa using m5 j (by omega) (by simpa using hj2)
      · rw [path_cons]
        rcases m6 with h0 | ⟨x, hx⟩
        · subst h0
          have : ¬ ∀ x, val.get x = none := fun hc => hk ((kids_empty_iff val).2 hc)
          obtain ⟨x, hx⟩ : ∃ x, val.get x ≠ none := Classical.not_forall.1 this
          refine ⟨x, ?_⟩
          rw [path_zero, List.cons_append, List.nil_append, hget, has_cons]
          cases hg : val.get x with
          | none => exact absurd hg hx
          | some v => exact ⟨v, rfl, has_nil v⟩
        · refine ⟨x, ?_⟩
          rw [List.cons_append, hget]
          exact hx

/-- The numbers of the walk as the specification counts them. -/
def Out.walked (o : Out) : Walked := ⟨o.start, o.prev, o.sep, o.endK⟩

theorem known_iff (rules : List Bytes) (p : List Bytes) : Known rules p ↔ (buildTrie rules).has p := by
  rw [buildTrie_has]; rfl

theorem marked_iff (rules : List Bytes) (p : List Bytes) : Marked rules p ↔ (buildTrie rules).endAt p := by
  rw [buildTrie_endAt]; rfl

theorem reading_walk (rules : List Bytes) {ls : List Bytes} (hne : ls ≠ []) :
    Reading rules ls (ls.map unescapeOrEmpty) ((walkL (buildTrie rules) ls 0 none).map Out.walked) := by
  have hopen : ∀ m, m ≤ ls.length → (m = 0 ∨ ∃ x, (buildTrie rules).has (path ls m ++ [x])) →
      Open rules ((ls.map unescapeOrEmpty).take m) := by
    rintro m - (rfl | ⟨x, hx⟩)
    · exact .inl (by simp)
    · exact .inr ⟨x, by rw [known_iff, take_path]; exact hx⟩
  cases hw : walkL (buildTrie rules) ls 0 none with
  | none =>
    obtain ⟨m, m1, m2, m3, m4, m5, m6⟩ := walkL_none hw
    refine .stuck (m := m) ⟨by omega, ?_, ?_, m5⟩ (hopen m (by omega) m6) m2 m1
    · rw [known_iff, take_path]; exact m3
    · intro j hj; rw [known_iff, take_path]; exact m4 j hj
  | some o =>
    obtain ⟨m, m1, m2, m3, m4, m5, m6⟩ := walkL_spec hw hne
    rw [Nat.zero_add] at m2
    have hnon : ∀ i, i ≤ o.prev → i + 1 < ls.length → ls[i]? ≠ some [] := fun i hi hl =>
      walkL_nonempty hw (by omega) hl
    have hprev : m ≤ o.prev + 1 := by
      rcases m5 with ⟨_, _, _, h, _⟩ | ⟨_, _, _, _, h, _⟩ | ⟨_, h, _⟩ <;> omega
    have hl : ∀ l, ls[m]? = some l → o.prev = m → m + 1 < ls.length → l ≠ [] := by
      rintro l h1 h2 h3 rfl
      exact hnon m (by omega) h3 h1
    have hseen : o.prev = m → Open rules ((ls.map unescapeOrEmpty).take m) := fun h =>
      hopen m m1 (walkL_open hw hne (by omega) (by omega))
    simp only [Option.map_some]
    have : o.walked = ⟨m, o.prev, o.sep, o.endK⟩ := by unfold Out.walked; rw [m2]
    rw [this]
    refine .ends ⟨m1, ?_, ?_, fun j hj hl => hnon j (by omega) hl⟩ ?_ ?_
    · rw [known_iff, take_path]; exact m3
    · intro j hj; rw [known_iff, take_path]; exact m4 j hj
    · unfold StopSpec at m5
      simp only [← take_path, ← known_iff, Nat.zero_add] at m5
      rcases m5 with ⟨l, h1, h2, h3, h4, h5⟩ | ⟨l, h1, h2, h3, h4, h5⟩ | ⟨h1, h2, h3, h4⟩
      · by_cases hx : Known rules ((ls.map unescapeOrEmpty).take m ++ [33 :: l])
        · rw [h3, h4 hx]; exact .exception h1 (hl l h1 h3) h2 hx
        · rw [h3, h5 hx]; exact .wildcard h1 (hl l h1 h3) h2 hx
      · rw [h4, h5]; exact .unknown (hseen h4) h1 (hl l h1 h4) h2 h3
      · obtain ⟨j, rfl⟩ : ∃ j, m = j + 1 := ⟨m - 1, by omega⟩
        rw [h3, show o.prev = j by omega]
        refine .all ?_
        rcases h4 with h4 | h4
        · right
          rintro (h0 | ⟨x, hx⟩)
          · cases ls with
            | nil => exact hne rfl
            | cons => simp at h0
          · exact h4 x hx
        · exact .inl h4
    · have m6 := m6 rfl
      unfold EndSpec at m6
      simp only [← take_path, ← marked_iff, Nat.zero_add] at m6
      rcases m6 with ⟨h1, h2⟩ | ⟨j, h1, h2, h3, h4⟩
      · rw [h1]; exact .none h2
      · rw [h2]; exact .at h1 h3 h4

/-! ## There is only one reading -/

theorem Spec.Known.prefix {rules p q : List Bytes} (h : Known rules q) (hp : p <+: q) : Known rules p := by
  rcases h with rfl | ⟨w, h1, h2⟩
  · exact .inl (by simpa using hp)
  · exact .inr ⟨w, hp.trans h1, h2⟩

/-- Nothing can be followed any further after `m` labels. -/
theorem follows_le {rules ls ds : List Bytes} {m m' : Nat} (hlen : ds.length = ls.length)
    (hf : Follows rules ls ds m')
    (hs : (∃ seen cut, Stops rules ls ds m seen cut) ∨ (ls[m]? = some [] ∧ m + 1 < ls.length)) : m' ≤ m := by
  apply Decidable.by_contra
  intro hlt
  have hlt : m < m' := by omega
  have hk : Known rules (ds.take (m + 1)) := hf.known.prefix (by
    rw [show ds.take (m + 1) = (ds.take m').take (m + 1) by rw [List.take_take]; congr 1; omega]
    exact List.take_prefix _ _)
  have hst := hf.noStar m hlt
  have hle := hf.le
  rcases hs with ⟨seen, cut, h⟩ | ⟨h1, h2⟩
  · cases h with
    | all h =>
      rcases h with h | h
      · omega
      · apply h
        refine .inr ⟨ds[seen + 1], ?_⟩
        rw [← List.take_succ_eq_append_getElem]
        refine hf.known.prefix ?_
        rw [show ds.take (seen + 1 + 1) = (ds.take m').take (seen + 1 + 1) by rw [List.take_take]; congr 1; omega]
        exact List.take_prefix _ _
    | unknown _ _ _ _ h => exact h hk
    | exception _ _ h => exact hst h
    | wildcard _ _ h => exact hst h
  · exact hf.nonempty m hlt h2 h1

theorem stops_unique {rules ls ds : List Bytes} {m seen cut seen' cut' : Nat} (h : Stops rules ls ds m seen cut)
    (h' : Stops rules ls ds m seen' cut') : seen = seen' ∧ cut = cut' := by
  have hopen : ∀ {m x}, Known rules (ds.take m ++ [x]) → Open rules (ds.take m) := fun h => .inr ⟨_, h⟩
  have hin : ∀ {m : Nat} {l}, ls[m]? = some l → m < ls.length := fun h => (List.getElem?_eq_some_iff.1 h).1
  cases h with
  | all h =>
    cases h' with
    | all => exact ⟨rfl, rfl⟩
    | unknown h1 h2 =>
      rcases h with h | h
      · have := hin h2; omega
      · exact absurd h1 h
    | exception h2 _ h1 =>
      rcases h with h | h
      · have := hin h2; omega
      · exact absurd (hopen h1) h
    | wildcard h2 _ h1 =>
      rcases h with h | h
      · have := hin h2; omega
      · exact absurd (hopen h1) h
  | unknown h1 h2 _ h4 =>
    cases h' with
    | all h =>
      rcases h with h | h
      · have := hin h2; omega
      · exact absurd h1 h
    | unknown => exact ⟨rfl, rfl⟩
    | exception _ _ h => exact absurd h h4
    | wildcard _ _ h => exact absurd h h4
  | exception h2 _ h1 hx =>
    cases h' with
    | all h =>
      rcases h with h | h
      · have := hin h2; omega
      · exact absurd (hopen h1) h
    | unknown _ _ _ h => exact absurd h1 h
    | exception => exact ⟨rfl, rfl⟩
    | wildcard h _ _ hx' =>
      rw [h2] at h; injection h with h; subst h
      exact absurd hx hx'
  | wildcard h2 _ h1 hx =>
    cases h' with
    | all h =>
      rcases h with h | h
      · have := hin h2; omega
      · exact absurd (hopen h1) h
    | unknown _ _ _ h => exact absurd h1 h
    | exception h _ _ hx' =>
      rw [h2] at h; injection h with h; subst h
      exact absurd hx' hx
    | wildcard => exact ⟨rfl, rfl⟩

theorem firstMark_unique {rules ds : List Bytes} {m : Nat} {a b : Option Nat} (h : FirstMark rules ds m a)
    (h' : FirstMark rules ds m b) : a = b := by
  cases h with
  | none h =>
    cases h' with
    | none => rfl
    | «at» h1 h2 => exact absurd h2 (h _ h1)
  | @«at» e h1 h2 h3 =>
    cases h' with
    | none h => exact absurd h2 (h _ h1)
    | @«at» e' g1 g2 g3 =>
      rcases Nat.lt_trichotomy e e' with h | h | h
      · exact absurd h2 (g3 _ h)
      · rw [h]
      · exact absurd g2 (h3 _ h)

theorem reading_unique {rules ls ds : List Bytes} (hlen : ds.length = ls.length) {a b : Option Walked}
    (h : Reading rules ls ds a) (h' : Reading rules ls ds b) : a = b := by
  have stuck : ∀ {m seen cut : Nat}, Open rules (ds.take m) → ls[m]? = some [] → m + 1 < ls.length →
      ¬ Stops rules ls ds m seen cut := by
    intro m seen cut h1 h2 h3 hs
    cases hs with
    | all h =>
      rcases h with h | h
      · omega
      · exact h h1
    | unknown _ h n => rw [h2] at h; injection h with h; exact n h3 h.symm
    | exception h n => rw [h2] at h; injection h with h; exact n h3 h.symm
    | wildcard h n => rw [h2] at h; injection h with h; exact n h3 h.symm
  cases h with
  | @stuck m f1 f2 f3 f4 =>
    cases h' with
    | stuck => rfl
    | @ends m' _ _ _ g1 g2 _ =>
      have e : m = m' := Nat.le_antisymm (follows_le hlen f1 (.inl ⟨_, _, g2⟩)) (follows_le hlen g1 (.inr ⟨f3, f4⟩))
      subst e
      exact absurd g2 (stuck f2 f3 f4)
  | @ends m _ _ _ f1 f2 f3 =>
    cases h' with
    | @stuck m' g1 g2 g3 g4 =>
      have e : m = m' := Nat.le_antisymm (follows_le hlen f1 (.inr ⟨g3, g4⟩)) (follows_le hlen g1 (.inl ⟨_, _, f2⟩))
      subst e
      exact absurd f2 (stuck g2 g3 g4)
    | @ends m' _ _ _ g1 g2 g3 =>
      have e : m = m' := Nat.le_antisymm (follows_le hlen f1 (.inl ⟨_, _, g2⟩)) (follows_le hlen g1 (.inl ⟨_, _, f2⟩))
      subst e
      obtain ⟨rfl, rfl⟩ := stops_unique f2 g2
      rw [firstMark_unique f3 g3]

theorem reading_iff {rules ls ds : List Bytes} (hne : ls ≠ []) (hd : LabelValues ls ds) {w : Option Walked} :
    Reading rules ls ds w ↔ w = (walkL (buildTrie rules) ls 0 none).map Out.walked := by
  rw [labelValues_iff] at hd
  subst hd
  have h := reading_walk rules hne
  exact ⟨fun h' => reading_unique (by simp) h' h, fun e => e ▸ h⟩

end Fasttld
