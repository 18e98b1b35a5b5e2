import Verif.Model.Gen
import Verif.Props.Print

/-!
# C66: gen.go
-/

set_option linter.unusedSimpArgs false

namespace Fasttld.Props
open Fasttld Fasttld.Spec

theorem genPieces_text (now content : Bytes) : (genPieces now content).flatten = fallbackFile now genURL content := by
  simp [genPieces, fallbackFile, fallbackHeader]

theorem genWrites_prefix (w : Nat → Option Nat) (n : Nat) (ps : List Bytes) : genWrites w n ps <+: ps.flatten := by
  induction ps generalizing n with
  | nil => exact List.nil_prefix
  | cons p ps ih =>
    rw [genWrites, List.flatten_cons]
    split
    · exact List.prefix_append_right_inj p |>.2 (ih (n + 1))
    · exact (List.take_prefix _ _).trans (List.prefix_append _ _)

theorem genWrites_all {w : Nat → Option Nat} {n : Nat} {ps : List Bytes} (h : ∀ i < ps.length, w (n + i) = none) :
    genWrites w n ps = ps.flatten := by
  induction ps generalizing n with
  | nil => rfl
  | cons p ps ih =>
    have h0 := h 0 (by simp)
    rw [Nat.add_zero] at h0
    rw [genWrites, h0, List.flatten_cons]
    dsimp only
    rw [ih]
    intro i hi
    have := h (i + 1) (by simpa using hi)
    rw [← this]; congr 1; omega

/-- C66: unless the answer to the download was read to its end and the file could be created, gen.go fails and fallback.go
stays as it was.  Otherwise it succeeds, and the file holds a beginning of the generated text, all of it if no write
failed. -/
theorem C66_gen (env : GenEnv) (old : Option Bytes) :
    (∃ code body f, env.response = .status code body true ∧ env.created = true ∧ genMain env old = (0, some f) ∧
      f <+: fallbackFile env.now genURL body ∧
      ((∀ i < 7, env.write i = none) → f = fallbackFile env.now genURL body)) ∨
    ((∀ code body, env.response = .status code body true → env.created = false) ∧ genMain env old = (1, old)) := by
  unfold genMain
  cases hr : env.response with
  | failed => exact .inr ⟨by simp, rfl⟩
  | status code body complete =>
    cases complete with
    | false => exact .inr ⟨by simp, rfl⟩
    | true =>
      cases hc : env.created with
      | false => exact .inr ⟨by simp, by simp⟩
      | true =>
        refine .inl ⟨code, body, genWrites env.write 0 (genPieces env.now body), rfl, rfl, by simp, ?_, ?_⟩
        · rw [← genPieces_text]; exact genWrites_prefix _ _ _
        · intro h
          rw [← genPieces_text]
          exact genWrites_all (by simpa [genPieces] using h)

/-- C66: a file that was not written to its end is noticed by the compiler: unless only the last line break is missing, it
does not hold a declaration of the constant, if neither the list nor the time contains a back quote. -/
theorem C66_incomplete {now content f : Bytes} (hn : (96 : UInt8) ∉ now) (hq : (96 : UInt8) ∉ content)
    (hf : f <+: fallbackFile now genURL content) {header src value rest : Bytes} (he : f = header ++ src)
    (hs : RawString src value rest) : f = fallbackFile now genURL content ∨ f ++ [10] = fallbackFile now genURL content := by
  obtain ⟨inner, h1, h2, h3⟩ := hs
  obtain ⟨t, ht⟩ := hf
  subst he h1
  have hh : (96 : UInt8) ∉ fallbackHeader now genURL := by
    unfold fallbackHeader
    simp only [List.mem_append, not_or]
    refine ⟨⟨⟨⟨by decide +kernel, hn⟩, by decide +kernel⟩, by decide +kernel⟩, by decide +kernel⟩
  -- back quotes: two in the file, and two in its beginning
  have hc := congrArg (List.count (96 : UInt8)) ht
  have hpos : ∀ {x y : Bytes}, header ++ ([96] ++ inner ++ [96] ++ rest) ++ t = x ++ 96 :: y → (96 : UInt8) ∉ y →
      rest ++ t = y := by
    intro x y hxy hy
    have hcr : List.count (96 : UInt8) (rest ++ t) = 0 := by
      have h5 : List.count (96 : UInt8) (fallbackFile now genURL content) = 2 := by
        unfold fallbackFile
        simp [List.count_append, List.count_eq_zero.2 hh, List.count_eq_zero.2 hq]
      rw [h5] at hc
      simp [List.count_append, List.count_cons] at hc ⊢
      omega
    have hnr : (96 : UInt8) ∉ rest ++ t := List.count_eq_zero.1 hcr
    have key : ∀ (a b u v : Bytes), (96 : UInt8) ∉ u → (96 : UInt8) ∉ v → a ++ 96 :: u = b ++ 96 :: v → u = v := by
      intro a b u v hu hv hh
      have := congrArg List.reverse hh
      simp only [List.reverse_append, List.reverse_cons, List.append_assoc, List.cons_append, List.nil_append] at this
      have cut : ∀ {p q x y : Bytes}, (96 : UInt8) ∉ p → (96 : UInt8) ∉ q → p ++ 96 :: x = q ++ 96 :: y → p = q := by
        intro p
        induction p with
        | nil =>
          intro q x y _ hq he
          cases q with
          | nil => rfl
          | cons c q => simp at he hq; exact absurd he.1 hq.1
        | cons c p ih =>
          intro q x y hp hq he
          cases q with
          | nil => simp at he hp; exact absurd he.1.symm hp.1
          | cons d q =>
            simp only [List.cons_append, List.cons.injEq] at he
            obtain ⟨rfl, he⟩ := he
            rw [ih (fun h => hp (by simp [h])) (fun h => hq (by simp [h])) he]
      exact List.reverse_inj.1 (cut (by simpa using hu) (by simpa using hv) this)
    exact key (header ++ ([96] ++ inner)) x (rest ++ t) y hnr hy (by rw [← hxy]; simp)
  have hy := hpos (x := fallbackHeader now genURL ++ [96] ++ content) (y := [10]) (by
    rw [ht]; unfold fallbackFile; simp) (by decide)
  cases t with
  | nil => left; rw [← ht]; simp
  | cons c t =>
    cases rest with
    | nil =>
      right
      rw [← ht]
      simp at hy
      simp [hy]
    | cons d rest => exfalso; have := congrArg List.length hy; simp at this

/-- C66: neither the status nor the contents are checked; an error page becomes the built-in list. -/
theorem C66_any_status (code : Nat) (body now : Bytes) (old : Option Bytes) :
    genMain ⟨.status code body true, true, now, fun _ => none⟩ old = (0, some (fallbackFile now genURL body)) := by
  rw [← genPieces_text, ← genWrites_all (w := fun _ => none) (n := 0) (fun _ _ => rfl)]
  rfl

/-- C66: errors of writing are not reported: the exit status is 0, and the file is not Go. -/
theorem C66_write_error :
    (genMain ⟨.status 200 (b! "com\nnet\n") true, true, b! "now", fun i => if i = 5 then some 3 else none⟩ (some (b! "old"))) =
      (0, some (fallbackHeader (b! "now") genURL ++ b! "`com")) ∧
    ∀ header src value rest, fallbackHeader (b! "now") genURL ++ b! "`com" = header ++ src → ¬ RawString src value rest := by
  refine ⟨by decide +kernel, ?_⟩
  intro header src value rest he hs
  rcases C66_incomplete (now := b! "now") (content := b! "com\nnet\n") (by decide) (by decide)
    (f := fallbackHeader (b! "now") genURL ++ b! "`com") ⟨b! "\nnet\n`\n", by decide +kernel⟩ he hs with h | h
  · exact absurd h (by decide +kernel)
  · exact absurd h (by decide +kernel)

end Fasttld.Props
