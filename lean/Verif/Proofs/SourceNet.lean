import Verif.Proofs.SourceStrings

/-!
# Running the text of net.go
-/

set_option linter.unusedSimpArgs false

namespace Fasttld.GoLang
open Fasttld

variable {w : Nat} {idna : Idna} {texts : Lib} {isPrint : Nat → Bool} {B : Int}

/-- The results of `dtoi` and `xtoi`. -/
def tup (r : Nat × Nat × Bool) : Val := .tuple [.num .int r.1, .num .int r.2.1, .bool r.2.2]

theorem loop_dtoi (hB : Big w B) (hw : 2 ^ 31 ≤ B) (f n : Nat) (s : Bytes) (hs : s.length + 4 < B) (K : Out → Comp Val)
    (hret : ∀ (a b : Nat) x, K (.ret [.num .int a, .num .int b, .bool x]) = .ok (tup (a, b, x)))
    (hend : ∀ (m i : Nat), K (.norm [.str s, .num .int m, .num .int i, .bool false]) =
      .ok (tup (if i = 0 then (0, 0, false) else (m, i, true)))) :
    ∀ (rest pre : Bytes) (fuel : Nat) (m : Nat), s = pre ++ rest → rest.length < fuel → m < big →
      (loopOut (tableCtx w idna texts isPrint) (call (tableCtx w idna texts isPrint) Source.program (f + 1)) n
        (.bin .and (.bin .and (.bin .lt (.var 2 "i") (.call .len [(.var 0 "s")]))
          (.bin .le (.charLit 48) (.index (.var 0 "s") (.var 2 "i")))) (.bin .le (.index (.var 0 "s") (.var 2 "i")) (.charLit 57)))
        (.incr 2 "i") Source.dtoi_loop1 fuel
        [.str s, .num .int m, .num .int pre.length, .bool false]).bind K =
      .ok (tup (dtoiLoop rest m pre.length)) := by
  intro rest
  induction rest with
  | nil =>
    intro pre fuel m hsplit hfuel hm
    obtain ⟨fuel, rfl⟩ : ∃ m, fuel = m + 1 := ⟨fuel - 1, by simp at hfuel; omega⟩
    have hp : s = pre := by simpa using hsplit
    subst hp
    simp [loopOut_step, hend, dtoiLoop]
  | cons ch rest ih =>
    intro pre fuel m hsplit hfuel hm
    obtain ⟨fuel, rfl⟩ : ∃ m, fuel = m + 1 := ⟨fuel - 1, by simp at hfuel; omega⟩
    have ih := fun m h => ih (pre ++ [ch]) fuel m (by simp [hsplit]) (by simp at hfuel; omega) h
    simp only [List.length_append, List.length_singleton, Int.natCast_add, Int.natCast_one] at ih
    have hlt : (pre.length : Int) < s.length := by rw [hsplit]; simp; omega
    have hidx : Fasttld.index s (pre.length : Int) = .ok ch := by rw [hsplit]; exact index_mid pre ch rest
    have hw1 : NumTy.int.wrap w ((pre.length : Int) + 1) = pre.length + 1 := wrap_int hB (by omega) (by omega)
    have hlt256 := ch.toNat_lt
    have hbig : big = 16777215 := rfl
    rw [loopOut_step, dtoiLoop.eq_2]
    by_cases h1 : 48 ≤ ch.toNat
    · by_cases h2 : ch.toNat ≤ 57
      · have e1 : (48 : Int) ≤ ch.toNat := by omega
        have e2 : (ch.toNat : Int) ≤ 57 := by omega
        have e3 : ((ch.toNat : Int) - 48) % 256 = (ch.toNat - 48 : Nat) := by omega
        have e4 : NumTy.int.wrap w ((ch.toNat - 48 : Nat) : Int) = (ch.toNat - 48 : Nat) := wrap_int hB (by omega) (by omega)
        have e5 : NumTy.int.wrap w ((m : Int) * 10) = m * 10 := wrap_int hB (by omega) (by omega)
        obtain ⟨d, hd⟩ : ∃ d : Nat, m * 10 + (ch.toNat - 48) = d := ⟨_, rfl⟩
        have e6 : NumTy.int.wrap w ((m : Int) * 10 + (ch.toNat - 48 : Nat)) = (d : Int) := by
          rw [wrap_int hB (by omega) (by omega)]; omega
        simp only [hd]
        by_cases h3 : d ≥ big
        · have e7 : (16777215 : Int) ≤ d := by omega
          have h3 : 16777215 ≤ d := by omega
          have hr : K (.ret [.num .int 16777215, .num .int pre.length, .bool false]) = _ := hret 16777215 pre.length false
          simp [hlt, Source.dtoi_loop1, hidx, table, hw1, h1, h2, h3, e1, e2, e3, e4, e5, e6, e7, hr, hbig]
        · have e7 : ¬ (16777215 : Int) ≤ d := by omega
          have ih := ih d (Nat.lt_of_not_ge h3)
          have h3 : ¬ 16777215 ≤ d := by omega
          generalize loopOut _ _ _ _ _ _ fuel = L at ih ⊢
          simp [hlt, Source.dtoi_loop1, hidx, table, hw1, h1, h2, h3, e1, e2, e3, e4, e5, e6, e7, hbig, ih]
      · have e2 : ¬ (ch.toNat : Int) ≤ 57 := by omega
        simp [hlt, hidx, h1, h2, e2, hend]
    · have e1 : ¬ (48 : Int) ≤ ch.toNat := by omega
      simp [hlt, hidx, h1, e1, hend]

theorem run_dtoi (hB : Big w B) (hw : 2 ^ 31 ≤ B) (f : Nat) (s : Bytes) (hs : s.length + 4 < B) (hf : s.length + 1 ≤ f) :
    call (tableCtx w idna texts isPrint) Source.program (f + 1) .dtoi [.str s] = .ok (tup (dtoi s)) := by
  obtain ⟨f, rfl⟩ : ∃ m, f = m + 1 := ⟨f - 1, by omega⟩
  show Func.run _ (call _ Source.program (f + 1)) (f + 1) Source.dtoi_func _ = _
  simp [Func.run, Source.dtoi_func, Func.start, Func.args, Source.dtoi_1, Source.dtoi_2, Source.dtoi_3, Source.dtoi_4]
  refine loop_dtoi hB hw f (f + 1) s hs _ ?_ ?_ s [] (f + 1) 0 rfl (by omega) (by decide)
  · intro a b x; simp [Func.finish, Func.result, tup]
  · intro m i
    by_cases h : i = 0 <;> simp [Func.finish, Func.result, h, tup]

theorem loop_xtoi (hB : Big w B) (hw : 2 ^ 31 ≤ B) (f n : Nat) (s : Bytes) (hs : s.length + 4 < B) (K : Out → Comp Val)
    (hret : ∀ (i : Nat), K (.ret [.num .const 0, .num .int i, .bool false]) = .ok (tup (0, i, false)))
    (hend : ∀ (m i : Nat), K (.norm [.str s, .num .int m, .num .int i, .bool false]) =
      .ok (tup (if i = 0 then (0, i, false) else (m, i, true)))) :
    ∀ (rest pre : Bytes) (fuel : Nat) (m : Nat), s = pre ++ rest → rest.length < fuel → m < big →
      (loopOut (tableCtx w idna texts isPrint) (call (tableCtx w idna texts isPrint) Source.program (f + 1)) n
        (.bin .lt (.var 2 "i") (.call .len [(.var 0 "s")])) (.incr 2 "i") Source.xtoi_loop1 fuel
        [.str s, .num .int m, .num .int pre.length, .bool false]).bind K =
      .ok (tup (xtoiLoop rest m pre.length)) := by
  intro rest
  induction rest with
  | nil =>
    intro pre fuel m hsplit hfuel hm
    obtain ⟨fuel, rfl⟩ : ∃ m, fuel = m + 1 := ⟨fuel - 1, by simp at hfuel; omega⟩
    have hp : s = pre := by simpa using hsplit
    subst hp
    simp [loopOut_step, hend, xtoiLoop]
  | cons ch rest ih =>
    intro pre fuel m hsplit hfuel hm
    obtain ⟨fuel, rfl⟩ : ∃ m, fuel = m + 1 := ⟨fuel - 1, by simp at hfuel; omega⟩
    have ih := fun m h => ih (pre ++ [ch]) fuel m (by simp [hsplit]) (by simp at hfuel; omega) h
    simp only [List.length_append, List.length_singleton, Int.natCast_add, Int.natCast_one] at ih
    have hlt : (pre.length : Int) < s.length := by rw [hsplit]; simp; omega
    have hidx : Fasttld.index s (pre.length : Int) = .ok ch := by rw [hsplit]; exact index_mid pre ch rest
    have hw1 : NumTy.int.wrap w ((pre.length : Int) + 1) = pre.length + 1 := wrap_int hB (by omega) (by omega)
    have hlt256 := ch.toNat_lt
    have hbig : big = 16777215 := rfl
    have e5 : NumTy.int.wrap w ((m : Int) * 16) = m * 16 := wrap_int hB (by omega) (by omega)
    have wr : ∀ x : Nat, x < 20 → NumTy.int.wrap w (x : Int) = x := fun x hx => wrap_int hB (by omega) (by omega)
    have wr10 : ∀ x : Nat, x < 10 → NumTy.int.wrap w ((x : Int) + 10) = ((x + 10 : Nat) : Int) := fun x hx => by
      rw [wrap_int hB (by omega) (by omega)]; rfl
    have add : ∀ x : Nat, x < 20 → NumTy.int.wrap w ((m : Int) * 16 + (x : Int)) = ((m * 16 + x : Nat) : Int) := fun x hx => by
      rw [wrap_int hB (by omega) (by omega)]; omega
    have step : ∀ d : Nat, (if 16777215 ≤ (d : Int) then K (.ret [.num .const 0, .num .int pre.length, .bool false])
        else (loopOut (tableCtx w idna texts isPrint) (call (tableCtx w idna texts isPrint) Source.program (f + 1)) n
          (.bin .lt (.var 2 "i") (.call .len [(.var 0 "s")])) (.incr 2 "i") Source.xtoi_loop1 fuel
          [.str s, .num .int d, .num .int (pre.length + 1), .bool false]).bind K) =
        .ok (tup (if d ≥ big then (0, pre.length, false) else xtoiLoop rest d (pre.length + 1))) := by
      intro d
      by_cases h : d < big
      · rw [if_neg (by omega), if_neg (by omega), ih d h]
      · rw [if_pos (by omega), if_pos (by omega), hret]
    rw [loopOut_step, xtoiLoop.eq_2]
    generalize loopOut _ _ _ _ _ _ fuel = L at step ⊢
    by_cases h1 : 48 ≤ ch.toNat ∧ ch.toNat ≤ 57
    · obtain ⟨x, hx⟩ : ∃ x : Nat, ch.toNat = 48 + x := ⟨ch.toNat - 48, by omega⟩
      have hv : hexVal ch = some (x) := by simp only [hexVal]; rw [if_pos h1]; congr 1; omega
      have step := step (m * 16 + (x))
      have e3 : ((ch.toNat : Int) - 48) % 256 = x := by omega
      have e4 := wr x (by omega)
      have e6 := add (x) (by omega)
      simp only [hv]
      generalize m * 16 + (x) = d at step e6 ⊢
      simp [hlt, Source.xtoi_loop1, hidx, table, hw1, hv]
      simp only [e3, e4, e5, e6]
      repeat (first | rw [if_pos (by omega)] | rw [if_neg (by omega)])
      simpa using step
    · by_cases h2 : 97 ≤ ch.toNat ∧ ch.toNat ≤ 102
      · obtain ⟨x, hx⟩ : ∃ x : Nat, ch.toNat = 97 + x := ⟨ch.toNat - 97, by omega⟩
        have hv : hexVal ch = some (x + 10) := by simp only [hexVal]; rw [if_neg h1, if_pos h2]; congr 1; omega
        have step := step (m * 16 + (x + 10))
        have e3 : ((ch.toNat : Int) - 97) % 256 = x := by omega
        have e4 := wr x (by omega)
        have e6 := add (x + 10) (by omega)
        have e7 := wr10 x (by omega)
        simp only [hv]
        generalize m * 16 + (x + 10) = d at step e6 ⊢
        simp [hlt, Source.xtoi_loop1, hidx, table, hw1, hv]
        simp only [e3, e4, e5, e6, e7, e6]
        repeat (first | rw [if_pos (by omega)] | rw [if_neg (by omega)])
        simpa using step
      · by_cases h3 : 65 ≤ ch.toNat ∧ ch.toNat ≤ 70
        · obtain ⟨x, hx⟩ : ∃ x : Nat, ch.toNat = 65 + x := ⟨ch.toNat - 65, by omega⟩
          have hv : hexVal ch = some (x + 10) := by simp only [hexVal]; rw [if_neg h1, if_neg h2, if_pos h3]; congr 1; omega
          have step := step (m * 16 + (x + 10))
          have e3 : ((ch.toNat : Int) - 65) % 256 = x := by omega
          have e4 := wr x (by omega)
          have e6 := add (x + 10) (by omega)
          have e7 := wr10 x (by omega)
          simp only [hv]
          generalize m * 16 + (x + 10) = d at step e6 ⊢
          simp [hlt, Source.xtoi_loop1, hidx, table, hw1, hv]
          simp only [e3, e4, e5, e6, e7, e6]
          repeat (first | rw [if_pos (by omega)] | rw [if_neg (by omega)])
          simpa using step
        · have hv : hexVal ch = none := by simp only [hexVal]; rw [if_neg h1, if_neg h2, if_neg h3]
          simp only [hv]
          rw [← hend]
          simp [hlt, Source.xtoi_loop1, hidx, table]
          repeat' split
          all_goals first | (exfalso; omega) | rfl

theorem run_xtoi (hB : Big w B) (hw : 2 ^ 31 ≤ B) (f : Nat) (s : Bytes) (hs : s.length + 4 < B) (hf : s.length + 1 ≤ f) :
    call (tableCtx w idna texts isPrint) Source.program (f + 1) .xtoi [.str s] = .ok (tup (xtoi s)) := by
  obtain ⟨f, rfl⟩ : ∃ m, f = m + 1 := ⟨f - 1, by omega⟩
  show Func.run _ (call _ Source.program (f + 1)) (f + 1) Source.xtoi_func _ = _
  simp [Func.run, Source.xtoi_func, Func.start, Func.args, Source.xtoi_1, Source.xtoi_2, Source.xtoi_3, Source.xtoi_4]
  refine loop_xtoi hB hw f (f + 1) s hs _ ?_ ?_ s [] (f + 1) 0 rfl (by omega) (by decide)
  · intro i; simp [Func.finish, Func.result, tup]
  · intro m i
    by_cases h : i = 0 <;> simp [Func.finish, Func.result, h, tup]

theorem slice_length_le {s t : Bytes} {lo hi : Int} (h : Fasttld.slice s lo hi = .ok t) : t.length ≤ s.length := by
  have := slice_ok h
  omega

theorem loop_isIPv4 (hB : Big w B) (hw : 2 ^ 31 ≤ B) (f n N : Nat) (hN : N + 4 < B) (hf : N + 1 ≤ f) (K : Out → Comp Val)
    (hret : ∀ b, K (.ret [.bool b]) = .ok (.bool b))
    (hend : ∀ (s : Bytes), K (.norm [.str s]) = .ok (.bool (s.length = 0))) :
    ∀ (k i : Nat) (s : Bytes) (fuel : Nat), i + k = 4 → k < fuel → s.length ≤ N →
      ((loopOut (tableCtx w idna texts isPrint) (call (tableCtx w idna texts isPrint) Source.program (f + 1)) n
        (.bin .lt (.var 1 "i") (.glob .iPv4len)) (.incr 1 "i") Source.isIPv4_loop1 fuel
        [.str s, .num .int i]).bind (fun o => K (o.leave 1))) =
      (ofGo (isIPv4Loop k i s)).bind fun b => .ok (.bool b) := by
  intro k
  induction k with
  | zero =>
    intro i s fuel hi hfuel hs
    obtain ⟨fuel, rfl⟩ : ∃ m, fuel = m + 1 := ⟨fuel - 1, by omega⟩
    obtain rfl : i = 4 := by omega
    simp [loopOut_step, hend, isIPv4Loop, table]
  | succ k ih =>
    intro i s fuel hi hfuel hs
    obtain ⟨fuel, rfl⟩ : ∃ m, fuel = m + 1 := ⟨fuel - 1, by omega⟩
    have hlt : (i : Int) < 4 := by omega
    have ih := fun s h => ih (i + 1) s fuel (by omega) (by omega) h
    simp only [Int.natCast_add, Int.natCast_one] at ih
    have hw1 : NumTy.int.wrap w ((i : Int) + 1) = i + 1 := wrap_int hB (by omega) (by omega)
    have hd := fun (s : Bytes) (h : s.length ≤ N) => run_dtoi (idna := idna) (texts := texts) (isPrint := isPrint) hB hw f s (by omega) (by omega)
    rw [loopOut_step, isIPv4Loop]
    generalize loopOut _ _ _ _ _ _ fuel = L at ih ⊢
    have oct : ∀ t : Bytes, t.length ≤ N →
        (if (dtoi t).snd.snd = false then K (Out.ret [Val.bool false])
        else if 255 < ((dtoi t).fst : Int) then K (Out.ret [Val.bool false])
        else if 1 < ((dtoi t).snd.fst : Int) then
            Except.bind (ofGo (index t 0)) fun a =>
              if (a.toNat : Int) = 48 then K (Out.ret [Val.bool false])
              else
                Except.bind (ofGo (slice t ↑(dtoi t).snd.fst ↑(List.length t))) fun a =>
                  Except.bind (L [Val.str a, Val.num NumTy.int (i + 1)]) fun o => K (Out.leave 1 o)
          else
            Except.bind (ofGo (slice t ↑(dtoi t).snd.fst ↑(List.length t))) fun a =>
              Except.bind (L [Val.str a, Val.num NumTy.int (i + 1)]) fun o => K (Out.leave 1 o)) =
        if (dtoi t).snd.snd = false ∨ 255 < (dtoi t).fst then Except.ok (Val.bool false)
        else if 1 < (dtoi t).snd.fst then
          Except.bind (ofGo (index t 0)) fun a =>
            if 1 < (dtoi t).snd.fst ∧ a = 48 then Except.ok (Val.bool false)
            else
              Except.bind (ofGo (slice t ↑(dtoi t).snd.fst ↑(List.length t))) fun a =>
                Except.bind (ofGo (isIPv4Loop k (i + 1) a)) fun b => Except.ok (Val.bool b)
        else
          Except.bind (ofGo (slice t ↑(dtoi t).snd.fst ↑(List.length t))) fun a =>
            Except.bind (ofGo (isIPv4Loop k (i + 1) a)) fun b => Except.ok (Val.bool b) := by
      intro t ht
      generalize dtoi t = r
      obtain ⟨m, c, x⟩ := r
      have tail : (Except.bind (ofGo (slice t (c : Int) ↑(List.length t))) fun a =>
              Except.bind (L [Val.str a, Val.num NumTy.int (i + 1)]) fun o => K (Out.leave 1 o)) =
          Except.bind (ofGo (slice t (c : Int) ↑(List.length t))) fun a =>
            Except.bind (ofGo (isIPv4Loop k (i + 1) a)) fun b => Except.ok (Val.bool b) := by
        cases hsl : slice t (c : Int) ↑(List.length t) with
        | error e => rfl
        | ok u => simpa using ih u (Nat.le_trans (slice_length_le hsl) ht)
      simp only [tail]
      have e48 : ∀ a : UInt8, (a.toNat : Int) = 48 ↔ a = 48 := fun a => iff_of_eq (byte_eq a 48)
      have n255 : (255 : Int) < m ↔ 255 < m := by omega
      have n1 : (1 : Int) < c ↔ 1 < c := by omega
      simp only [n255, n1, e48, hret]
      cases x <;> by_cases h1 : 255 < m <;> by_cases h2 : 1 < c <;> simp [h1, h2]
    by_cases h0 : i > 0
    · have e0 : (0 : Int) < i := by omega
      simp [hlt, Source.isIPv4_loop1, table, hw1, h0, e0, hret]
      split
      · rfl
      · split
        · rfl
        · cases hsl : slice s ((decodeRune s).2 : Int) ↑(List.length s) with
          | error e => rfl
          | ok u =>
            have hu := Nat.le_trans (slice_length_le hsl) hs
            have hd := hd u hu
            have oct := oct u hu
            rw [hret] at oct
            simp [hd, tup, hret, table, hw1, oct]
    · obtain rfl : i = 0 := by omega
      have hd := hd s hs
      have oct := oct s hs
      simp only [Int.natCast_zero, Int.zero_add, Nat.zero_add] at oct hw1
      simp only [hret] at oct
      simp [hlt, Source.isIPv4_loop1, table, hw1, hd, tup, oct, hret]

theorem run_isIPv4 (hB : Big w B) (hw : 2 ^ 31 ≤ B) (f : Nat) (s : Bytes) (hs : s.length + 4 < B) (hf : s.length + 5 ≤ f) :
    call (tableCtx w idna texts isPrint) Source.program (f + 1) .isIPv4 [.str s] = (ofGo (isIPv4 s)).bind fun b => .ok (.bool b) := by
  obtain ⟨f, rfl⟩ : ∃ m, f = m + 1 := ⟨f - 1, by omega⟩
  have ht := run_fastTrim (idna := idna) (texts := texts) (isPrint := isPrint) hB hw f s labelSeparatorsRuneSet .trimRight hs (by omega)
  show Func.run _ (call _ Source.program (f + 1)) (f + 1) Source.isIPv4_func _ = _
  simp only [modeNum] at ht
  simp [Func.run, Source.isIPv4_func, Func.start, Func.args, Source.isIPv4_1, Source.isIPv4_2, ht, table, isIPv4]
  cases htr : fastTrim s labelSeparatorsRuneSet .trimRight with
  | error e => rfl
  | ok u =>
    have hu := fastTrim_length_le htr
    simp
    refine loop_isIPv4 hB hw f (f + 1) u.length (by omega) (by omega) (fun a => Except.bind (Out.andThen _ a) _) ?_ ?_ 4 0 u (f + 1) rfl (by omega) (Nat.le_refl _)
    · intro b; simp [Func.finish, Func.result]
    · intro v; simp [Func.finish, Func.result, Source.isIPv4_3]

theorem loop_isIPv6 (hB : Big w B) (hw : 2 ^ 31 ≤ B) (f n N : Nat) (hN : N + 4 < B) (hf : N + 5 ≤ f) (K : Out → Comp Val)
    (hret : ∀ b, K (.ret [.bool b]) = .ok (.bool b))
    (hend : ∀ (s : Bytes) (e : Int) (i : Nat), K (.norm [.str s, .num .int e, .num .int i]) = .ok (.bool (isIPv6Finish s i e))) :
    ∀ (k i : Nat) (s : Bytes) (e : Int) (fuel : Nat), i + 2 * k = 16 → k < fuel → s.length ≤ N →
      ((loopOut (tableCtx w idna texts isPrint) (call (tableCtx w idna texts isPrint) Source.program (f + 1)) n
        (.bin .lt (.var 2 "i") (.glob .iPv6len)) .skip Source.isIPv6_loop1 fuel
        [.str s, .num .int e, .num .int i]).bind K) =
      (ofGo (isIPv6Loop (k + 1) s i e)).bind fun b => .ok (.bool b) := by
  intro k
  induction k with
  | zero => 
    intro i s e fuel hi hfuel hs
    obtain ⟨fuel, rfl⟩ : ∃ m, fuel = m + 1 := ⟨fuel - 1, by omega⟩
    obtain rfl : i = 16 := by omega
    have h := hend s e 16
    simp only [Int.cast_ofNat_Int] at h
    simp [loopOut_step, table, isIPv6Loop, iPv6len, h]
  | succ k ih =>
    intro i s e fuel hi hfuel hs
    obtain ⟨fuel, rfl⟩ : ∃ m, fuel = m + 1 := ⟨fuel - 1, by omega⟩
    have ih := fun s e h => ih (i + 2) s e fuel (by omega) (by omega) h
    have hlt : (i : Int) < 16 := by omega
    have hlt' : i < 16 := by omega
    have hend2 := fun s e => hend s e (i + 2)
    have hend4 := fun s e => hend s e (i + 4)
    simp only [Int.natCast_add, Int.cast_ofNat_Int] at ih hend2 hend4
    have hw2 : NumTy.int.wrap w ((i : Int) + 2) = i + 2 := wrap_int hB (by omega) (by omega)
    have hw4 : NumTy.int.wrap w ((i : Int) + 4) = i + 4 := wrap_int hB (by omega) (by omega)
    have hx := run_xtoi (idna := idna) (texts := texts) (isPrint := isPrint) hB hw f s (by omega) (by omega)
    have h4 := run_isIPv4 (idna := idna) (texts := texts) (isPrint := isPrint) hB hw f s (by omega) (by omega)
    have e58 : ∀ a : UInt8, ((a.toNat : Int) = 58) = (a = 58) := fun a => byte_eq a 58
    rw [loopOut_step, isIPv6Loop.eq_2]
    generalize loopOut _ _ _ _ _ _ fuel = L at ih ⊢
    generalize xtoi s = r at hx ⊢
    obtain ⟨m, c, x⟩ := r
    simp only [tup] at hx
    cases x with
    | false => simp [Source.isIPv6_loop1, table, hx, hlt, hlt', iPv6len, hret]
    | true =>
      by_cases hm : 65535 < m
      · have hm' : (65535 : Int) < m := by omega
        simp [Source.isIPv6_loop1, table, hx, hlt, hlt', iPv6len, hret, hm, hm']
      · have hm' : ¬ (65535 : Int) < m := by omega
        cases hsl : Fasttld.slice s (c : Int) ↑(List.length s) with
        | error er =>
          by_cases hc : c < s.length
          · simp [Source.isIPv6_loop1, table, hx, hlt, hlt', iPv6len, hret, hm, hm', hc, hsl]
          · simp [Source.isIPv6_loop1, table, hx, hlt, hlt', iPv6len, hret, hm, hm', hc, hsl, hw2]
        | ok t =>
          have ht := slice_length_le hsl
          have tail : (if t = [] then K (Out.norm [Val.str t, Val.num NumTy.int e, Val.num NumTy.int (↑i + 2)])
              else
                Except.bind (ofGo (index t 0)) fun a =>
                  if (a.toNat : Int) = 58 then
                    if (List.length t : Int) = 1 then Except.ok (Val.bool false)
                    else
                      Except.bind (ofGo (slice t 1 ↑(List.length t))) fun a =>
                        Except.bind (ofGo (index a 0)) fun a_1 =>
                          if (a_1.toNat : Int) = 58 then
                            if 0 ≤ e then Except.ok (Val.bool false)
                            else
                              Except.bind (ofGo (slice a 1 ↑(List.length a))) fun a =>
                                if a = [] then K (Out.norm [Val.str a, Val.num NumTy.int (↑i + 2), Val.num NumTy.int (↑i + 2)])
                                else Except.bind (L [Val.str a, Val.num NumTy.int (↑i + 2), Val.num NumTy.int (↑i + 2)]) K
                          else Except.bind (L [Val.str a, Val.num NumTy.int e, Val.num NumTy.int (↑i + 2)]) K
                  else Except.ok (Val.bool false)) =
              if t = [] then Except.ok (Val.bool (isIPv6Finish t (i + 2) e))
              else
                Except.bind (ofGo (index t 0)) fun a =>
                  if ¬a = 58 ∨ List.length t = 1 then Except.ok (Val.bool false)
                  else
                    Except.bind (ofGo (slice t 1 ↑(List.length t))) fun a =>
                      Except.bind (ofGo (index a 0)) fun a_1 =>
                        if a_1 = 58 then
                          if 0 ≤ e then Except.ok (Val.bool false)
                          else
                            Except.bind (ofGo (slice a 1 ↑(List.length a))) fun a =>
                              if a = [] then Except.ok (Val.bool (isIPv6Finish a (i + 2) (↑i + 2)))
                              else Except.bind (ofGo (isIPv6Loop (k + 1) a (i + 2) (↑i + 2))) fun b => Except.ok (Val.bool b)
                        else Except.bind (ofGo (isIPv6Loop (k + 1) a (i + 2) e)) fun b => Except.ok (Val.bool b) := by
            have len1 : ((List.length t : Int) = 1) = (List.length t = 1) := by simp only [eq_iff_iff]; omega
            simp only [hend2, e58, len1]
            split
            · rfl
            · cases index t 0 with
              | error er => rfl
              | ok a =>
                simp only [ofGo_ok, bind_ok]
                by_cases ha : a = 58
                · by_cases h1 : List.length t = 1
                  · simp [ha, h1]
                  · simp only [ha, h1, if_true, if_false, not_true, or_false, false_or]
                    cases hs1 : Fasttld.slice t 1 ↑(List.length t) with
                    | error er => rfl
                    | ok u =>
                      have hu := slice_length_le hs1
                      simp only [ofGo_ok, bind_ok]
                      cases index u 0 with
                      | error er => rfl
                      | ok b =>
                        simp only [ofGo_ok, bind_ok]
                        split
                        · split
                          · rfl
                          · cases hs2 : Fasttld.slice u 1 ↑(List.length u) with
                            | error er => rfl
                            | ok v =>
                              have hv := slice_length_le hs2
                              simp only [ofGo_ok, bind_ok]
                              split
                              · rfl
                              · exact ih v _ (by omega)
                        · exact ih u _ (by omega)
                · simp [ha]
          by_cases hc : c < s.length
          · cases hr : rangeString t with
            | nil => 
              have h0 : indexVal (.runes []) (.num .const 0) = .error (.fault .indexRange) := rfl
              simp [Source.isIPv6_loop1, table, hx, hlt, hlt', iPv6len, hret, hm, hm', hc, hsl, firstIsSeparator, hr, h0]
            | cons p ps =>
              have h0 : indexVal (.runes (p.2 :: List.map Prod.snd ps)) (.num .const 0) = .ok (.num .rune p.2) := rfl
              have e12 : ((i : Int) = 12) = (i = 12) := by simp only [eq_iff_iff]; omega
              have g12 : ((12 : Int) < i) = (12 < i) := by simp only [eq_iff_iff]; omega
              by_cases hs : labelSeparatorsRuneSet.exists p.2
              · simp [Source.isIPv6_loop1, table, hx, hlt, hlt', iPv6len, lenDiff, iPv4len, hret, hm, hm', hc, hsl, firstIsSeparator, hr, hs, h4, hw4, hend4, h0, e12, g12]
                by_cases he : e < 0 <;> by_cases h12 : i = 12 <;> simp [he, h12]
              · simp [Source.isIPv6_loop1, table, hx, hlt, hlt', iPv6len, hret, hm, hm', hc, hsl, firstIsSeparator, hr, hs, hw2, h0]
                exact tail
          · simp [Source.isIPv6_loop1, table, hx, hlt, hlt', iPv6len, hret, hm, hm', hc, hsl, hw2]
            exact tail

theorem run_isIPv6 (hB : Big w B) (hw : 2 ^ 31 ≤ B) (f : Nat) (s : Bytes) (hs : s.length + 4 < B) (hf : s.length + 10 ≤ f) :
    call (tableCtx w idna texts isPrint) Source.program (f + 1) .isIPv6 [.str s] = (ofGo (isIPv6 s)).bind fun b => .ok (.bool b) := by
  obtain ⟨f, rfl⟩ : ∃ m, f = m + 1 := ⟨f - 1, by omega⟩
  have hfin : ∀ b, Source.isIPv6_func.finish (.ret [.bool b]) = .ok (.bool b) := fun _ => rfl
  show Func.run _ (call _ Source.program (f + 1)) (f + 1) Source.isIPv6_func _ = _
  simp only [Func.run]
  generalize Source.isIPv6_func.finish = F at hfin ⊢
  have loop : ∀ (t : Bytes) (e : Int), t.length ≤ s.length →
      ((loopOut (tableCtx w idna texts isPrint) (call (tableCtx w idna texts isPrint) Source.program (f + 1)) (f + 1)
        (.bin .lt (.var 2 "i") (.glob .iPv6len)) .skip Source.isIPv6_loop1 (f + 1)
        [.str t, .num .int e, .num .int 0]).bind fun a =>
          Except.bind
            (Out.andThen
              (fun vs =>
                Except.bind
                  (exec (tableCtx w idna texts isPrint)
                    (call (tableCtx w idna texts isPrint) Source.program (f + 1)) (f + 1) Source.isIPv6_5 vs)
                  (Out.andThen fun vs =>
                    Except.bind
                      (exec (tableCtx w idna texts isPrint)
                        (call (tableCtx w idna texts isPrint) Source.program (f + 1)) (f + 1) Source.isIPv6_6
                        vs)
                      (Out.andThen fun vs =>
                        Except.bind
                          (exec (tableCtx w idna texts isPrint)
                            (call (tableCtx w idna texts isPrint) Source.program (f + 1)) (f + 1)
                            Source.isIPv6_7 vs)
                          (Out.andThen fun vs => Except.ok (Out.norm vs)))))
              (Out.leave 3 a))
            F) =
      (ofGo (isIPv6Loop 9 t 0 e)).bind fun b => .ok (.bool b) := by
    intro t e ht
    refine loop_isIPv6 hB hw f (f + 1) s.length hs (by omega) _ ?_ ?_ 8 0 t e (f + 1) rfl (by omega) ht
    · intro b; simp [hfin]
    · intro v e i
      have g16 : ((i : Int) < 16) = (i < 16) := by simp only [eq_iff_iff]; omega
      simp [hfin, Source.isIPv6_5, Source.isIPv6_6, Source.isIPv6_7, isIPv6Finish, table, g16, iPv6len]
      by_cases hv : v = [] <;> by_cases hi : i < 16 <;> by_cases he : e < 0 <;> by_cases he' : 0 ≤ e <;> simp [hv, hi, he, he'] <;> omega
  simp [Source.isIPv6_func, Func.start, Func.args, Source.isIPv6_1, Source.isIPv6_2, Source.isIPv6_3, Source.isIPv6_4, table]
  simp only [loop s (-1) (Nat.le_refl _), hfin]
  match s, loop with
  | [], _ => rfl
  | [a], _ => rfl
  | a :: b :: r, loop => 
    have e58 : ∀ a : UInt8, ((a.toNat : Int) = 58) = (a = 58) := fun a => byte_eq a 58
    have h2 : (2 : Int) ≤ (a :: b :: r).length := by simp; omega
    have h2' : (a :: b :: r).length ≥ 2 := by simp
    have i0 : Fasttld.index (a :: b :: r) 0 = .ok a := rfl
    have i1 : Fasttld.index (a :: b :: r) 1 = .ok b := rfl
    have hr := loop r 0 (by simp; omega)
    rw [if_pos h2, isIPv6, if_pos h2']
    simp only [i0, i1, slice_from_two, ofGo_ok, bind_ok, hr, e58]
    by_cases ha : a = 58 <;> by_cases hb : b = 58 <;> by_cases hn : r = [] <;> simp [ha, hb, hn]

end Fasttld.GoLang
