import Verif.Proofs.SourceSysList
import Verif.Proofs.SourceTrie
import Verif.Props.Memory

/-!
# Programs with memory, against programs without
-/

set_option linter.unusedSimpArgs false

namespace Fasttld.GoLang
open Fasttld

section
variable {α β γ δ : Type}

/-- There are addresses left. -/
def Free (m : Mem) : Prop := ∃ N, ∀ r, N ≤ r → m.nodes r = none

theorem put_free {n : Nodes} {r : Ref} {nd : HNode} (h : ∃ N, ∀ x, N ≤ x → n x = none) : ∃ N, ∀ x, N ≤ x → n.put r nd x = none := by
  obtain ⟨N, h⟩ := h
  refine ⟨(N + r + 1 : Nat), fun (x : Nat) (hx : (N + r + 1 : Nat) ≤ x) => ?_⟩
  have h1 : (N : Nat) ≤ x := by simp only [Ref] at *; omega
  have h2 : x ≠ r := by simp only [Ref] at *; omega
  rw [put_other _ _ h2]
  exact h x h1

theorem does_free {o : MOp β} {m m' : Mem} {b : β} (hd : o.Does m b m') (h : Free m) : Free m' := by
  cases o with
  | loadRoot => obtain ⟨-, rfl⟩ := hd; exact h
  | storeRoot r => obtain rfl := hd; exact h
  | alloc => obtain ⟨-, rfl⟩ := hd; exact put_free h
  | get r k => obtain ⟨nd, -, -, rfl⟩ := hd; exact h
  | set r k v => obtain ⟨nd, -, rfl⟩ := hd; exact put_free h
  | isEnd r => obtain ⟨nd, -, -, rfl⟩ := hd; exact h
  | setEnd r => obtain ⟨nd, -, rfl⟩ := hd; exact put_free h
  | len r => obtain ⟨nd, -, -, rfl⟩ := hd; exact h
  | nil => exact hd.elim
  | scan r => obtain ⟨nd, -, -, rfl⟩ := hd; exact h

/-- From memory `m` on, `p` does what `q` does, and accesses memory; no access goes wrong.  `ok` restricts the answers of the
operating system; `R` relates the results. -/
inductive Impl (ok : LEvent → Prop) (R : Mem → α → β → Prop) : Mem → XProg α → LProg β → Prop
  | ret {m : Mem} {a : α} {b : β} (h : R m a b) : Impl ok R m (.ret a) (.ret b)
  | sys {m : Mem} {δ : Type} {o : Op δ} {k : δ → Bytes → XProg α} {l : δ → Bytes → LProg β}
      (h : ∀ b t, ok (.sys (o.event b) t) → Impl ok R m (k b t) (l b t)) : Impl ok R m (.sys o k) (.call o l)
  | effect {m : Mem} {e : Effect} {k : XProg α} {l : LProg β} (h : Impl ok R m k l) : Impl ok R m (.effect e k) (.effect e l)
  | mem {m : Mem} {δ : Type} {o : MOp δ} {k : δ → XProg α} {q : LProg β} (can : Free m → ∃ b m', o.Does m b m')
      (h : ∀ b m', o.Does m b m' → Impl ok R m' (k b) q) : Impl ok R m (.mem o k) q

variable {ok : LEvent → Prop} {R : Mem → α → β → Prop} {T : Mem → γ → δ → Prop}

theorem Impl.bind {m : Mem} {p : XProg α} {q : LProg β} (h : Impl ok R m p q) {f : α → XProg γ} {g : β → LProg δ}
    (hf : ∀ m a b, R m a b → Impl ok T m (f a) (g b)) : Impl ok T m (p.bind f) (q >>= g) := by
  induction h with
  | ret h => exact hf _ _ _ h
  | sys _ ih => exact .sys ih
  | effect _ ih => exact .effect ih
  | mem can _ ih => exact .mem can ih

theorem Impl.ofL {m : Mem} (p : LProg β) {f : β → XProg γ} {g : β → LProg δ} (hf : ∀ b, Impl ok T m (f b) (g b)) :
    Impl ok T m ((toX p).bind f) (p >>= g) := by
  induction p with
  | ret a => exact hf a
  | call o k ih => exact .sys fun b t _ => ih b t
  | effect e k ih => exact .effect ih

/-- Every run of the program with memory is one of the program without. -/
theorem Impl.forward {m : Mem} {p : XProg α} {q : LProg β} (h : Impl ok R m p q) {evs : List LEvent} {a : α} {m' : Mem} (hr : XRun p m evs a m')
    (hok : ∀ e ∈ evs, ok e) : ∃ b, LRun q evs b ∧ R m' a b := by
  induction h generalizing evs with
  | ret h => cases hr; exact ⟨_, .ret _, h⟩
  | sys _ ih =>
    cases hr with
    | sys hr =>
      obtain ⟨b, h1, h2⟩ := ih _ _ (hok _ (by simp)) hr fun e he => hok e (by simp [he])
      exact ⟨b, .call h1, h2⟩
  | effect _ ih =>
    cases hr with
    | effect hr =>
      obtain ⟨b, h1, h2⟩ := ih hr fun e he => hok e (by simp [he])
      exact ⟨b, .effect h1, h2⟩
  | mem _ _ ih =>
    cases hr with
    | mem hd hr => exact ih _ _ hd hr hok

/-- And the other way round. -/
theorem Impl.backward {m : Mem} {p : XProg α} {q : LProg β} (h : Impl ok R m p q) (hm : Free m) {evs : List LEvent} {b : β} (hr : LRun q evs b)
    (hok : ∀ e ∈ evs, ok e) : ∃ a m', XRun p m evs a m' ∧ R m' a b ∧ Free m' := by
  induction h generalizing evs with
  | ret h => cases hr; exact ⟨_, _, .ret _ _, h, hm⟩
  | sys _ ih =>
    cases hr with
    | call hr =>
      obtain ⟨a, m', h1, h2⟩ := ih _ _ (hok _ (by simp)) hm hr fun e he => hok e (by simp [he])
      exact ⟨a, m', .sys h1, h2⟩
  | effect _ ih =>
    cases hr with
    | effect hr =>
      obtain ⟨a, m', h1, h2⟩ := ih hm hr fun e he => hok e (by simp [he])
      exact ⟨a, m', .effect h1, h2⟩
  | mem can _ ih =>
    obtain ⟨x, m1, hd⟩ := can hm
    obtain ⟨a, m', h1, h2⟩ := ih x m1 hd (does_free hd hm) hr hok
    exact ⟨a, m', .mem hd h1, h2⟩

/-- A part that only accesses memory, the way `u` does. -/
theorem Impl.ofSim {P : α → β → Prop} {post : Nodes → β → Prop} {p : MProg α} {u : MProg β} (h : Sim P p u) {m : Mem} {O : Nodes}
    (hu : u.wp post O) (hs : O.Sub m.nodes) {k : α → XProg γ} {q : LProg δ}
    (hk : ∀ a b m' O', P a b → Fasttld.Runs u m b m' → post O' b → O'.Sub m'.nodes → Impl ok T m' (k a) q) : Impl ok T m ((MProg.toX p).bind k) q := by
  induction h generalizing m O with
  | ret h => exact hk _ _ _ _ h (.ret _ _) hu hs
  | call o _ ih =>
    refine .mem (fun hm => MOp.safe_can hu hs hm) fun b m' hd => ?_
    rcases MOp.safe_step hu hs hd with ⟨_, hf, -⟩ | ⟨O', h1, -, h2, -⟩
    · exact hf.elim
    · exact ih b h1 h2 fun a c m'' O'' h3 h4 => hk a c m'' O'' h3 (.call hd h4)
  | nil k l => exact hu.elim

theorem wp_split {post : Nodes → β → Prop} {p : MProg α} {f : α → MProg β} {O : Nodes} (h : (p.bind f).wp post O) :
    p.wp (fun O a => (f a).wp post O) O := by
  induction p generalizing O with
  | ret a => exact h
  | call o k ih => exact MOp.safe_mono (fun _ _ h => h) (fun O b h => ih b h) h

theorem runs_join {p : MProg α} {f : α → MProg β} {m m' m'' : Mem} {a : α} {b : β} (h : Fasttld.Runs p m a m') (h' : Fasttld.Runs (f a) m' b m'') :
    Fasttld.Runs (p.bind f) m b m'' := by
  induction h with
  | ret a m => exact h'
  | call hd _ ih => exact .call hd (ih h')
end

end Fasttld.GoLang
