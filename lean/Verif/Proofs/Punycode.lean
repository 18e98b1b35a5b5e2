import Verif.Spec.Punycode
import Verif.Proofs.Utf8

/-!
# Punycode can be read back
-/

set_option linter.unusedSimpArgs false

namespace Fasttld.Spec.Punycode
open Fasttld

theorem threshold_bounds (bias k : Nat) : 1 ≤ threshold bias k ∧ threshold bias k ≤ 26 := by
  unfold threshold; split <;> (try split) <;> omega

theorem value_digit {d : Nat} (h : d < 36) : value (digit d) = d := by
  have : ∀ d < 36, value (digit d) = d := by decide
  exact this d h

theorem digit_shape {d : Nat} (h : d < 36) : digit d ≠ 45 ∧ digit d ≠ 46 := by
  have : ∀ d < 36, digit d ≠ 45 ∧ digit d ≠ 46 := by decide
  exact this d h

theorem readNumber_number (bias : Nat) (rest : Bytes) : ∀ (bound q k w i : Nat), q < bound →
    readNumber bias (number bias bound q k ++ rest) k w i = some (i + q * w, rest) := by
  intro bound
  induction bound with
  | zero => intro q k w i h; omega
  | succ bound ih =>
    intro q k w i h
    obtain ⟨h1, h2⟩ := threshold_bounds bias k
    unfold number
    simp only
    split
    · rename_i hq
      have hd : q < 36 := by omega
      simp only [List.cons_append, List.nil_append, readNumber, value_digit hd]
      rw [if_neg (by omega), if_pos hq]
    · rename_i hq
      generalize ht : threshold bias k = t at *
      have hm : (q - t) % (36 - t) < 36 - t := Nat.mod_lt _ (by omega)
      have hd : t + (q - t) % (36 - t) < 36 := by omega
      simp only [List.cons_append, readNumber, value_digit hd, ht]
      rw [if_neg (by omega), if_neg (by omega)]
      have hq' : (q - t) / (36 - t) < bound := by
        have : (q - t) / (36 - t) ≤ q - t := Nat.div_le_self _ _
        omega
      rw [ih _ _ _ _ hq']
      have hdm := Nat.div_add_mod (q - t) (36 - t)
      congr 2
      generalize (q - t) / (36 - t) = x at *
      generalize (q - t) % (36 - t) = y at *
      generalize 36 - t = z at *
      have hq2 : q = t + y + z * x := by omega
      rw [hq2, Nat.add_mul (t + y), Nat.mul_comm w z, ← Nat.mul_assoc x z, Nat.mul_comm x z]
      omega

theorem number_ne_nil (bias q k : Nat) : number bias (q + 1) q k ≠ [] := by
  unfold number; simp only; split <;> simp

theorem number_chars (bias : Nat) : ∀ (bound q k : Nat), ∀ b ∈ number bias bound q k, ∃ d < 36, b = digit d := by
  intro bound
  induction bound with
  | zero => intro q k b h; simp [number] at h
  | succ bound ih =>
    intro q k b h
    obtain ⟨h1, h2⟩ := threshold_bounds bias k
    unfold number at h
    simp only at h
    generalize threshold bias k = t at *
    split at h
    · exact ⟨q, by omega, by simpa using h⟩
    · rcases List.mem_cons.1 h with rfl | h
      · exact ⟨_, by have := Nat.mod_lt (q - t) (show 36 - t > 0 by omega); omega, rfl⟩
      · exact ih _ _ b h

theorem numbers_chars : ∀ (ds : List Nat) (bias h : Nat) (first : Bool), ∀ b ∈ numbers ds bias h first, ∃ d < 36, b = digit d := by
  intro ds
  induction ds with
  | nil => intro _ _ _ b h; simp [numbers] at h
  | cons d ds ih =>
    intro bias h first b hb
    unfold numbers at hb
    rcases List.mem_append.1 hb with hb | hb
    · exact number_chars _ _ _ _ b hb
    · exact ih _ _ _ b hb

theorem readNumbers_numbers : ∀ (ds : List Nat) (bound bias h : Nat) (first : Bool), (numbers ds bias h first).length ≤ bound →
    readNumbers bound (numbers ds bias h first) bias h first = some ds := by
  intro ds
  induction ds with
  | nil => intro bound bias h first _; simp [numbers, readNumbers]
  | cons d ds ih =>
    intro bound bias h first hl
    have hne : numbers (d :: ds) bias h first ≠ [] := by simp [numbers, number_ne_nil]
    obtain ⟨b, bs, e⟩ := List.exists_cons_of_ne_nil hne
    cases bound with
    | zero => rw [e] at hl; simp at hl
    | succ bound =>
      rw [e, readNumbers, ← e]
      simp only [numbers, readNumber_number bias _ _ _ _ _ _ (Nat.lt_succ_self d)]
      simp only [Nat.zero_add, Nat.mul_one, Option.bind_eq_bind, Option.bind_some]
      rw [ih _ _ _ _ ?_]
      · rfl
      · simp only [numbers, List.length_append] at hl
        have := List.length_pos_iff.2 (number_ne_nil bias d 36)
        omega

/-! ## The numbers stand for the code points -/

/-- During a scan: `cs1` is behind, `cs2` is ahead. -/
theorem scan_spec (m : Nat) : ∀ (cs2 cs1 : List Nat) (delta n i : Nat) (more : List Nat), n ≤ m →
    n * ((cs1.filter (fun c => c ≤ m)).length + (cs2.filter (fun c => c < m)).length + 1) + i + delta =
      m * ((cs1.filter (fun c => c ≤ m)).length + (cs2.filter (fun c => c < m)).length + 1) + (cs1.filter (fun c => c ≤ m)).length →
    ∃ n' i', n' ≤ m ∧
      (scan m cs2 delta ((cs1.filter (fun c => c ≤ m)).length + (cs2.filter (fun c => c < m)).length)).2.2 =
        ((cs1 ++ cs2).filter (fun c => c ≤ m)).length ∧
      n' * (((cs1 ++ cs2).filter (fun c => c ≤ m)).length + 1) + i' +
        (scan m cs2 delta ((cs1.filter (fun c => c ≤ m)).length + (cs2.filter (fun c => c < m)).length)).2.1 =
        m * (((cs1 ++ cs2).filter (fun c => c ≤ m)).length + 1) + ((cs1 ++ cs2).filter (fun c => c ≤ m)).length ∧
      insertAll ((scan m cs2 delta ((cs1.filter (fun c => c ≤ m)).length + (cs2.filter (fun c => c < m)).length)).1 ++ more) n i
        (cs1.filter (fun c => c ≤ m) ++ cs2.filter (fun c => c < m)) =
        insertAll more n' i' ((cs1 ++ cs2).filter (fun c => c ≤ m)) := by
  intro cs2
  induction cs2 with
  | nil =>
    intro cs1 delta n i more hn he
    refine ⟨n, i, hn, ?_⟩
    simpa [scan] using he
  | cons c cs2 ih =>
    intro cs1 delta n i more hn he
    have key := fun delta n i hn he => ih (cs1 ++ [c]) delta n i more hn he
    simp only [List.append_assoc, List.singleton_append] at key
    unfold scan
    by_cases h1 : c < m
    · simp only [h1, ↓reduceIte]
      have e1 : (cs1 ++ [c]).filter (fun c => decide (c ≤ m)) = cs1.filter (fun c => decide (c ≤ m)) ++ [c] := by
        simp [List.filter_append, Nat.le_of_lt h1]
      have e2 : (c :: cs2).filter (fun c => decide (c < m)) = c :: cs2.filter (fun c => decide (c < m)) := by
        simp [h1]
      rw [e2] at he ⊢
      have := key (delta + 1) n i hn (by
        rw [e1]
        simp only [List.length_append, List.length_cons, List.length_nil] at he ⊢
        have e3 : ∀ a b : Nat, a + (0 + 1) + b + 1 = a + (b + 1) + 1 := by intros; omega
        rw [e3]
        omega)
      rw [e1] at this
      simp only [List.length_append, List.length_cons, List.length_nil] at this ⊢
      have e3 : ∀ a b : Nat, a + (0 + 1) + b = a + (b + 1) := by intros; omega
      rw [e3] at this
      simpa using this
    · by_cases h2 : c = m
      · subst h2
        simp only [Nat.lt_irrefl, ↓reduceIte]
        have e1 : (cs1 ++ [c]).filter (fun x => decide (x ≤ c)) = cs1.filter (fun x => decide (x ≤ c)) ++ [c] := by
          simp [List.filter_append]
        have e2 : (c :: cs2).filter (fun x => decide (x < c)) = cs2.filter (fun x => decide (x < c)) := by simp
        rw [e2] at he ⊢
        have := key 0 c ((cs1.filter (fun x => decide (x ≤ c))).length + 1) (Nat.le_refl _) (by
          rw [e1]
          simp only [List.length_append, List.length_cons, List.length_nil]
          omega)
        rw [e1] at this
        simp only [List.length_append, List.length_cons, List.length_nil] at this
        have e3 : ∀ a b : Nat, a + (0 + 1) + b = a + b + 1 := by intros; omega
        rw [e3] at this
        obtain ⟨n', i', a1, a2, a3, a4⟩ := this
        refine ⟨n', i', a1, a2, a3, ?_⟩
        simp only [List.cons_append, insertAll, List.length_append]
        generalize hA : cs1.filter (fun x => decide (x ≤ c)) = A at *
        generalize hB : cs2.filter (fun x => decide (x < c)) = B at *
        have hdiv : n + (i + delta) / (A.length + B.length + 1) = c := by
          have : (n * (A.length + B.length + 1) + (i + delta)) / (A.length + B.length + 1) = c := by
            rw [← Nat.add_assoc, he, Nat.mul_comm, Nat.mul_add_div (by omega), Nat.div_eq_of_lt (by omega)]; rfl
          rw [Nat.mul_comm, Nat.mul_add_div (by omega)] at this
          exact this
        have hmod : (i + delta) % (A.length + B.length + 1) = A.length := by
          have : (n * (A.length + B.length + 1) + (i + delta)) % (A.length + B.length + 1) = A.length := by
            rw [← Nat.add_assoc, he, Nat.mul_comm, Nat.mul_add_mod, Nat.mod_eq_of_lt (by omega)]
          rwa [Nat.mul_comm, Nat.mul_add_mod] at this
        rw [hdiv, hmod]
        simpa using a4
      · simp only [h1, h2, ↓reduceIte]
        have e1 : (cs1 ++ [c]).filter (fun x => decide (x ≤ m)) = cs1.filter (fun x => decide (x ≤ m)) := by
          have : ¬ c ≤ m := by omega
          simp [List.filter_append, this]
        have e2 : (c :: cs2).filter (fun x => decide (x < m)) = cs2.filter (fun x => decide (x < m)) := by simp [h1]
        rw [e2] at he ⊢
        have := key delta n i hn (by rw [e1]; exact he)
        rwa [e1] at this

theorem filter_lt_succ (cs : List Nat) (m : Nat) : cs.filter (fun c => decide (c < m + 1)) = cs.filter (fun c => decide (c ≤ m)) := by
  apply List.filter_congr; intro c _; simp [Nat.lt_succ_iff]

theorem filter_shrinks {cs : List Nat} {n m : Nat} (h : m ∈ cs.filter (fun c => decide (n ≤ c))) :
    (cs.filter (fun c => decide (m + 1 ≤ c))).length < (cs.filter (fun c => decide (n ≤ c))).length := by
  have hn : n ≤ m := by simpa using (List.mem_filter.1 h).2
  have : cs.filter (fun c => decide (m + 1 ≤ c)) = (cs.filter (fun c => decide (n ≤ c))).filter (fun c => decide (m + 1 ≤ c)) := by
    rw [List.filter_filter]
    apply List.filter_congr
    intro c _
    by_cases hc : m + 1 ≤ c
    · have : n ≤ c := by omega
      simp [hc, this]
    · simp [hc]
  rw [this]
  exact List.length_filter_lt_length_iff_exists.2 ⟨m, h, by simp⟩

/-- The numbers of the outer loop stand for the code points from `n` on. -/
theorem deltas_spec (cs : List Nat) : ∀ (bound n delta n0 i0 : Nat), (cs.filter (fun c => n ≤ c)).length ≤ bound → n0 ≤ n →
    n0 * ((cs.filter (fun c => c < n)).length + 1) + i0 + delta = n * ((cs.filter (fun c => c < n)).length + 1) →
    insertAll (deltas cs bound n delta (cs.filter (fun c => c < n)).length) n0 i0 (cs.filter (fun c => c < n)) = cs := by
  have done : ∀ n, cs.filter (fun c => decide (n ≤ c)) = [] → cs.filter (fun c => decide (c < n)) = cs := by
    intro n h
    rw [List.filter_eq_self]
    intro c hc
    have := List.filter_eq_nil_iff.1 h c hc
    simp at this ⊢; omega
  intro bound
  induction bound with
  | zero =>
    intro n delta n0 i0 hb _ _
    rw [deltas]
    exact done n (List.eq_nil_of_length_eq_zero (by omega))
  | succ bound ih =>
    intro n delta n0 i0 hb hn he
    rw [deltas]
    split
    · rename_i h
      exact done n (by simpa using h)
    · rename_i m h
      have hmem : m ∈ cs.filter (fun c => decide (n ≤ c)) := (List.min?_eq_some_iff.1 h).1
      have hmin := (List.min?_eq_some_iff.1 h).2
      have hnm : n ≤ m := by simpa using (List.mem_filter.1 hmem).2
      have hlt : cs.filter (fun c => decide (c < m)) = cs.filter (fun c => decide (c < n)) := by
        apply List.filter_congr
        intro c hc
        have : ¬ (n ≤ c ∧ c < m) := fun ⟨a, b⟩ => by
          have := hmin c (List.mem_filter.2 ⟨hc, by simpa using a⟩)
          omega
        simp only [decide_eq_decide]
        omega
      simp only
      have := scan_spec m cs [] (delta + (m - n) * ((cs.filter (fun c => decide (c < n))).length + 1)) n0 i0
        (deltas cs bound (m + 1)
          ((scan m cs (delta + (m - n) * ((cs.filter (fun c => decide (c < n))).length + 1)) (cs.filter (fun c => decide (c < n))).length).2.1 + 1)
          (scan m cs (delta + (m - n) * ((cs.filter (fun c => decide (c < n))).length + 1)) (cs.filter (fun c => decide (c < n))).length).2.2)
        (Nat.le_trans hn hnm) (by
          simp only [List.filter_nil, List.length_nil, Nat.zero_add, Nat.add_zero, hlt]
          rw [← Nat.add_assoc, he, ← Nat.add_mul]
          congr 1
          omega)
      simp only [List.filter_nil, List.length_nil, Nat.zero_add, List.nil_append, hlt] at this
      obtain ⟨n', i', a1, a2, a3, a4⟩ := this
      rw [a4, a2, ← filter_lt_succ]
      rw [← filter_lt_succ] at a3
      refine ih (m + 1) _ n' i' ?_ (by omega) ?_
      · have := filter_shrinks hmem
        omega
      · rw [← Nat.add_assoc, a3, Nat.add_mul]
        omega

theorem takeWhile_all {p : UInt8 → Bool} {l : Bytes} (h : ∀ b ∈ l, p b = true) (r : Bytes) :
    (l ++ r).takeWhile p = l ++ r.takeWhile p := by
  induction l with
  | nil => rfl
  | cons b l ih =>
    rw [List.cons_append, List.takeWhile_cons, if_pos (h b (by simp)), ih (fun b hb => h b (by simp [hb]))]; rfl

theorem splitLast_encode {x n : Bytes} (hn : ∀ b ∈ n, b ≠ 45) : splitLast (x ++ (if x = [] then [] else [45]) ++ n) = (x, n) := by
  have hn' : ∀ b ∈ n.reverse, decide (b ≠ 45) = true := by simpa using hn
  unfold splitLast
  split
  · rename_i h
    subst h
    have := takeWhile_all hn' []
    simp only [List.append_nil, List.takeWhile_nil] at this
    simp only [List.nil_append, this]
    simp
  · have := takeWhile_all hn' (45 :: x.reverse)
    simp only [List.reverse_append, List.reverse_cons, List.reverse_nil, List.nil_append, List.append_assoc, List.singleton_append]
    rw [this]
    have hl : ∀ a b : Nat, a + (b + 1) - b - 1 = a := by intros; omega
    simp [hl]

/-- Punycode is read back as what was written. -/
theorem decode_encode' (cs : List Nat) : decode (encode cs) = some cs := by
  have hc : ∀ b ∈ numbers (deltas cs cs.length 128 0 (cs.filter (fun c => decide (c < 128))).length) 72
      (cs.filter (fun c => decide (c < 128))).length true, b ≠ 45 := by
    intro b hb
    obtain ⟨d, hd, rfl⟩ := numbers_chars _ _ _ _ b hb
    exact (digit_shape hd).1
  have hback : ((cs.filter (fun c => decide (c < 128))).map UInt8.ofNat).map UInt8.toNat = cs.filter (fun c => decide (c < 128)) := by
    rw [List.map_map]
    conv => rhs; rw [← List.map_id (cs.filter _)]
    apply List.map_congr_left
    intro c hc
    have : c < 128 := by simpa using (List.mem_filter.1 hc).2
    simp only [Function.comp, id]
    rw [UInt8.toNat_ofNat']
    omega
  have hs := splitLast_encode (x := (cs.filter (fun c => decide (c < 128))).map UInt8.ofNat) hc
  simp only [List.map_eq_nil_iff] at hs
  unfold decode encode
  rw [hs]
  simp only [List.length_map]
  rw [readNumbers_numbers _ _ _ _ _ (Nat.le_refl _), hback]
  simp only [Option.bind_eq_bind, Option.bind_some]
  have := deltas_spec cs cs.length 128 0 128 0 (List.length_filter_le _ _) (Nat.le_refl _) (by simp)
  exact congrArg some this

theorem encode_injective {cs ds : List Nat} (h : encode cs = encode ds) : cs = ds := by
  have := decode_encode' cs
  rw [h, decode_encode'] at this
  exact (Option.some.inj this).symm

end Fasttld.Spec.Punycode
