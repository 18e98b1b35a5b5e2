import Verif.Proofs.Threads
import Verif.Proofs.Reading
import Verif.Proofs.Cut
import Verif.Proofs.Url
import Verif.Spec.Cost

/-!
# How often Extract reads the trie
-/

set_option linter.unusedSimpArgs false

namespace Fasttld
open Spec Trie

/-! ## Programs that read at most a number of times -/

/-- The program only reads nodes in `F`, at most `n` times, and comes back with `v`. -/
def MProg.readsIn {α : Type} (F : Nodes) (v : α) : MProg α → Nat → Prop
  | .ret a, _ => a = v
  | .call _ _, 0 => False
  | .call o k, n + 1 => o.sees F (fun b => (k b).readsIn F v n)

theorem MProg.readsIn_mono {α : Type} {F F' : Nodes} (hs : F.Sub F') {v : α} {p : MProg α} {n n' : Nat} (hn : n ≤ n')
    (h : p.readsIn F v n) : p.readsIn F' v n' := by
  induction p generalizing n n' with
  | ret a => cases n <;> cases n' <;> exact h
  | call o k ih =>
    cases n with
    | zero => exact h.elim
    | succ n =>
      cases n' with
      | zero => omega
      | succ n' => exact MOp.sees_mono hs (fun b hb => ih b (by omega) hb) h

theorem MProg.readsIn_bind {α γ : Type} {F : Nodes} {p : MProg α} {f : α → MProg γ} {v : α} {w : γ} {n m : Nat}
    (h : p.readsIn F v n) (h' : (f v).readsIn F w m) : (p.bind f).readsIn F w (n + m) := by
  induction p generalizing n with
  | ret a =>
    have h : a = v := by cases n <;> exact h
    subst h
    exact MProg.readsIn_mono (Nodes.Sub.refl F) (by omega) h'
  | call o k ih =>
    cases n with
    | zero => exact h.elim
    | succ n =>
      rw [Nat.add_right_comm]
      exact MOp.sees_mono (Nodes.Sub.refl F) (fun b hb => ih b hb) h

theorem MProg.readsIn_ret {α : Type} (F : Nodes) (v : α) (n : Nat) : (MProg.ret v).readsIn F v n := by
  cases n <;> rfl

/-! ## Depth -/

/-- No path in the trie has more than `d` labels. -/
def Trie.Within (t : Trie) (d : Nat) : Prop := ∀ p, t.has p → p.length ≤ d

theorem Trie.Within.get {t v : Trie} {d : Nat} {l : Bytes} (h : t.Within d) (hv : t.get l = some v) :
    1 ≤ d ∧ v.Within (d - 1) := by
  have hp : ∀ p, v.has p → p.length + 1 ≤ d := by
    intro p hp
    have := h (l :: p) (by rw [has_cons]; exact ⟨v, hv, hp⟩)
    simpa using this
  refine ⟨by have := hp [] (has_nil v); simpa using this, fun p h1 => ?_⟩
  have := hp p h1
  omega

theorem Trie.Within.kids {t : Trie} {d : Nat} (h : t.Within d) (hk : t.kids.length ≠ 0) : 1 ≤ d := by
  rw [ne_eq, kids_empty_iff] at hk
  apply Classical.byContradiction
  intro hd
  apply hk
  intro l
  cases hg : t.get l with
  | none => rfl
  | some v => exact absurd (h.get hg).1 hd

theorem within_build {rules : List Bytes} {d : Nat} (h : RulesWithin d rules) : (buildTrie rules).Within d := by
  intro p hp
  rw [buildTrie_has] at hp
  rcases hp with rfl | ⟨q, h1, h2⟩
  · simp
  · exact Nat.le_trans h1.length_le (h q h2)

/-! ## The walk -/

theorem endH_readsIn {F : Nodes} {y : Ref} {t : Trie} (h : Rep F y t) (w : Walk) :
    (endH y w).readsIn F (if !w.hasSuffix && t.isEnd then
      { w with suffixEndIdx := w.previousSepIdx, hasSuffix := true } else w) 1 := by
  obtain ⟨nd, hn, he⟩ := h.node
  unfold endH
  cases hs : w.hasSuffix with
  | true => rfl
  | false => exact ⟨nd, hn, by simp [he, MProg.readsIn, MProg.bind, pure]⟩

/-- The number of accesses with `j` labels left and rules of at most `d` labels. -/
def readBound (j d : Nat) : Nat := 4 * min j (max d 1)

theorem readBound_pos {j d : Nat} (h : 1 ≤ j) : 4 ≤ readBound j d := by unfold readBound; omega

theorem walkLabelH_readsIn {F : Nodes} (netloc : Bytes) {node : Ref} {t : Trie} (hr : Rep F node t) {d j : Nat}
    (hd : t.Within d) (hj : 1 ≤ j) (label : Bytes)
    (isLast : Bool) (w : Walk) {c : Ref → Walk → MProg (M Walk)} {c' : Trie → Walk → M Walk}
    (hc : isLast = false → ∀ y v w', Rep F y v → v.Within (d - 1) → w'.sepIdx = w.sepIdx →
      (c y w').readsIn F (c' v w') (readBound (j - 1) (d - 1)) ∧ 1 ≤ j - 1) :
    (walkLabelH netloc node label isLast w c).readsIn F (walkLabel netloc t label isLast w c') (readBound j d) := by
  obtain ⟨nd, hn, -⟩ := hr.node
  have hsub := Nodes.Sub.refl F
  unfold walkLabelH walkLabel
  have h4 := readBound_pos (d := d) hj
  obtain ⟨b, hb⟩ : ∃ b, readBound j d = b + 1 := ⟨readBound j d - 1, by omega⟩
  rw [hb]
  refine ⟨nd, hn, ?_⟩
  dsimp only [MProg.bind]
  obtain ⟨b', rfl⟩ : ∃ b', b = b' + 1 := ⟨b - 1, by omega⟩
  rcases hr.get hn (b! "*") with ⟨h1, h2⟩ | ⟨y, v, h1, h2, -⟩
  · rw [h1, h2]
    refine ⟨nd, hn, ?_⟩
    dsimp only [MProg.bind]
    rcases hr.get hn (unescapeOrEmpty label) with ⟨h3, h4⟩ | ⟨y, v, h3, h4, h5⟩
    · rw [h3, h4]; exact MProg.readsIn_ret _ _ _
    · rw [h3, h4]
      obtain ⟨b, rfl⟩ : ∃ b, b' = 1 + (b + 1) := ⟨b' - 2, by omega⟩
      refine MProg.readsIn_bind (endH_readsIn h5 _) ?_
      obtain ⟨nd', hn', -⟩ := h5.node
      refine ⟨nd', hn', ?_⟩
      dsimp only [MProg.bind]
      by_cases h6 : v.kids.length = 0
      · rw [if_pos ((h5.len hn').2 h6), if_pos h6]; exact MProg.readsIn_ret _ _ _
      · rw [if_neg (fun hc => h6 ((h5.len hn').1 hc)), if_neg h6]
        cases isLast with
        | true => exact MProg.readsIn_ret _ _ _
        | false =>
          obtain ⟨g1, g2⟩ := hd.get h4
          have g3 := g2.kids h6
          have key := fun w' hw => hc rfl y v w' h5 g2 hw
          have g4 := (key w rfl).2
          refine MProg.readsIn_mono hsub ?_ (key _ ?_).1
          · unfold readBound at hb ⊢
            omega
          · split <;> rfl
  · rw [h1, h2]
    refine ⟨nd, hn, ?_⟩
    dsimp only [MProg.bind]
    rcases hr.get hn (33 :: label) with ⟨h3, h4⟩ | ⟨y, v, h3, h4, h5⟩ <;> rw [h3, h4] <;> exact MProg.readsIn_ret _ _ _

theorem walkHead_last {h : Bytes} {rt : List SepLabel} (g : GoodR h rt) (u : ExtractResult) {k : Nat}
    (hk : k = rt.length) (hl : Bool) (w : Walk) (hw : w.sepIdx = pos h rt k) :
    walkHead (joinR h rt) u hl w = .ok (.label h true { w with previousSepIdx := pos h rt k, sepIdx := -1 }) := by
  unfold walkHead
  have h1 : slice (joinR h rt) 0 w.sepIdx = .ok (pre h rt k) := by rw [hw]; exact slice_pre (by omega)
  have h2 := lastIndexAny_pre g (k := k) (by omega)
  rw [pos_gt (by omega)] at h2
  simp only [h1, labelSeparators_eq, h2, liftGo, bind_ok]
  rw [if_neg (by simp), pre_eq_head (by omega), hw]

theorem walkHead_step {h : Bytes} {rt : List SepLabel} (g : GoodR h rt) (u : ExtractResult) {k : Nat}
    (hk : k < rt.length) (hl : Bool) (w : Walk) (hw : w.sepIdx = pos h rt k) :
    walkHead (joinR h rt) u hl w =
      if (lab h rt k).length = 0 then
        if !hl then
          .ok (.skip { w with previousSepIdx := pos h rt k, sepIdx := pos h rt (k + 1), suffixEndIdx := pos h rt (k + 1) })
        else fail u .consecutiveSeparators
      else .ok (.label (lab h rt k) false { w with previousSepIdx := pos h rt k, sepIdx := pos h rt (k + 1) }) := by
  unfold walkHead
  have h1 : slice (joinR h rt) 0 w.sepIdx = .ok (pre h rt k) := by rw [hw]; exact slice_pre (by omega)
  have h2 := lastIndexAny_pre g (k := k) (by omega)
  obtain ⟨c, hc1, hc2⟩ := index_sep g (show k < k + 1 by omega) (show k + 1 ≤ rt.length by omega)
  rw [seg_one] at hc2
  have hpne : pos h rt (k + 1) ≠ -1 := by rw [pos_le (by omega)]; omega
  simp only [h1, labelSeparators_eq, h2, liftGo, bind_ok]
  rw [if_pos hpne]
  simp only [hc1, hw, hc2, bind_ok]

theorem walkLoopH_readsIn {F : Nodes} {h : Bytes} {rt : List SepLabel} (g : GoodR h rt) (u : ExtractResult) (fuel : Nat)
    {node : Ref} {t : Trie} (hr : Rep F node t) {d : Nat} (hd : t.Within d) (hasLabels : Bool) (w : Walk) {k : Nat}
    (hk : k ≤ rt.length) (hw : w.sepIdx = pos h rt k) :
    (walkLoopH (joinR h rt) u fuel node hasLabels w).readsIn F (walkLoop (joinR h rt) u fuel t hasLabels w)
      (readBound (rt.length + 1 - (if hasLabels then k else k + leadEmpty (rt.drop k))) d) := by
  induction fuel generalizing node t hasLabels w k d with
  | zero => exact MProg.readsIn_ret _ _ _
  | succ fuel ih =>
    rw [walkLoop_head, walkLoopH]
    rcases Nat.eq_or_lt_of_le hk with hk' | hk'
    · rw [walkHead_last g u hk' _ _ hw]
      simp only
      refine walkLabelH_readsIn _ hr hd ?_ _ _ _ (fun h => by cases h)
      subst hk'
      rw [List.drop_length]
      simp [leadEmpty]
    · rw [walkHead_step g u hk' _ _ hw]
      obtain ⟨s, l, hdr⟩ := exists_drop_of_lt hk'
      have hlab := lab_cons (h := h) hdr
      rw [hlab]
      by_cases hle : l = []
      · rw [if_pos (by simp [hle])]
        cases hasLabels with
        | true => exact MProg.readsIn_ret _ _ _
        | false =>
          simp only [Bool.not_false, if_true]
          have := ih hr hd false
            { w with previousSepIdx := pos h rt k, sepIdx := pos h rt (k + 1), suffixEndIdx := pos h rt (k + 1) }
            (k := k + 1) (by omega) rfl
          rw [hdr]
          simp only [leadEmpty, hle, if_true, Bool.false_eq_true, if_false] at this ⊢
          rw [show k + (leadEmpty (rt.drop (k + 1)) + 1) = k + 1 + leadEmpty (rt.drop (k + 1)) by omega]
          exact this
      · rw [if_neg (by simp [hle])]
        simp only
        have hb : (if hasLabels = true then k else k + leadEmpty (rt.drop k)) = k := by
          rw [hdr]; simp [leadEmpty, hle]
        rw [hb]
        refine walkLabelH_readsIn _ hr hd (by omega) _ _ _ (fun _ y v w' hy hv hw' => ⟨?_, by omega⟩)
        have := ih hy hv true w' (k := k + 1) (by omega) hw'
        simp only [if_true] at this
        rw [show rt.length + 1 - k - 1 = rt.length + 1 - (k + 1) by omega]
        exact this

/-! ## Before the trie -/

/-- Where the text comes from that is looked up in the trie. -/
theorem beforeHost_name {idna : Idna} {e : URLParams} {n : Bytes} {u : ExtractResult}
    (h : beforeHost idna e = .ok (.inr (n, u))) :
    ∃ host after, Authority e.url u.scheme u.userInfo (host ++ after) ∧ IsPlainHost host ∧
      AfterHost after u.port u.path ∧ HostTextOf idna e.convertURLToPunyCode host n := by
  unfold beforeHost at h
  rw [fastTrim_eq, whitespace_eq] at h
  simp only [liftGo_ok, bind_ok] at h
  rw [show flat (trimToks whiteSpace .trimBoth (toks e.url)) = trimmed e.url from rfl] at h
  rw [stageScheme_eq _ _ rfl] at h
  simp only [liftGo_ok, bind_ok] at h
  rw [stageUserInfo_eq _ _ rfl] at h
  simp only [liftGo_ok, bind_ok] at h
  have hA : Authority e.url (schemeSplit (trimmed e.url)).1 (userSplit (schemeSplit (trimmed e.url)).2).1
    (userSplit (schemeSplit (trimmed e.url)).2).2 := authority_iff.2 ⟨rfl, rfl⟩
  generalize (schemeSplit (trimmed e.url)).1 = sch at h hA
  generalize userSplit (schemeSplit (trimmed e.url)).2 = usr at h hA
  have hscan := scan_eq usr.2
  cases hsl : scanLoop usr.2.length usr.2 0 (-1) (-1) with
  | err er => rw [hsl] at h; simp [fail] at h
  | done o c hend =>
    rw [hsl] at hscan h
    simp only at hscan h
    rcases hscan with ⟨host, after, h1, h2, rfl, rfl, h5, h6⟩ | ⟨inner, after, h1, h2, rfl, h4, h5⟩
    · rw [h5] at h
      have h6v : stageIPv6 usr.2 (-1) (-1) (if after = [] then -1 else (host.length : Int))
          { scheme := sch, userInfo := usr.1 } = .ok { scheme := sch, userInfo := usr.1 } := by
        unfold stageIPv6; rw [if_neg (by simp)]
      rw [h6v, bind_ok, stageSplit_name h2, liftGo_ok, bind_ok] at h
      simp only at h
      rw [stagePortPath_eq after _ rfl rfl h6] at h
      cases hpp : portPath after with
      | none => rw [hpp] at h; simp [fail, bind_error] at h
      | some p =>
        rw [hpp] at h
        simp only [bind_ok] at h
        rw [if_neg (by simp)] at h
        have hst : stageIdna idna e host { scheme := sch, userInfo := usr.1, port := p.1, path := p.2 } =
            match hostText idna e.convertURLToPunyCode host with
            | .error er => fail { scheme := sch, userInfo := usr.1, port := p.1, path := p.2 } er
            | .ok n => .ok n := by
          unfold stageIdna hostText
          cases queryUnescape host with
          | error esc => rfl
          | ok un =>
            simp only
            by_cases hpu : e.convertURLToPunyCode = true
            · simp only [hpu, if_true]
            · simp only [hpu, if_false, Bool.false_eq_true]
              cases idna.toUnicodeErr un <;> rfl
        rw [hst] at h
        cases hht : hostText idna e.convertURLToPunyCode host with
        | error er => rw [hht] at h; simp [fail, bind_error] at h
        | ok n' =>
          rw [hht] at h
          simp only [bind_ok, Except.ok.injEq, Sum.inr.injEq, Prod.mk.injEq] at h
          obtain ⟨rfl, rfl⟩ := h
          obtain ⟨-, q2, q3⟩ := scanSplit_name_iff.1 h1
          exact ⟨host, after, by rw [← h2]; exact hA, q2, (portPath_iff h6).1 hpp, hostText_iff.1 hht⟩
    · exfalso
      rw [h5, h4] at h
      unfold stageIPv6 at h
      rw [if_pos (by omega)] at h
      have hin : slice usr.2 1 ((inner.length : Int) + 1) = .ok inner :=
        slice_eq (a := [91]) (b := inner) (c := 93 :: after) (by rw [h2]; simp) (by simp) (by simp; omega)
      rw [hin, liftGo_ok, bind_ok, isIPv6B_ok, liftGo_ok, bind_ok] at h
      by_cases h6 : isIPv6B inner = true
      · simp only [h6, Bool.not_true, Bool.false_eq_true, if_false, if_true] at h
        have h2' : usr.2 = (91 :: (inner ++ [93])) ++ after := by rw [h2]; simp
        have hlen2 : ((inner.length : Int) + 2) = ((91 :: (inner ++ [93]) : Bytes).length : Int) := by simp; omega
        have hsplit : stageSplit usr.2 (if after = [] then -1 else (inner.length : Int) + 2)
            = .ok (91 :: (inner ++ [93]), after) := by
          rw [hlen2]; exact stageSplit_name h2'
        by_cases ha : after = []
        · subst ha
          simp only [if_true] at hsplit h
          rw [if_neg (by simp), bind_ok, bind_ok, hsplit, liftGo_ok, bind_ok] at h
          simp only at h
          rw [stagePortPath_eq [] _ rfl rfl (by simp)] at h
          simp [portPath, bind_ok] at h
        · simp only [ha, if_false] at hsplit h
          rw [if_pos (by omega), hlen2, slice_suffix h2' rfl, liftGo_ok, bind_ok] at h
          by_cases hhe : (after.head?.map isHostEnd) ≠ some true
          · rw [if_pos ((head_indexAny after ha).2 hhe)] at h
            simp [fail, bind_error] at h
          · rw [if_neg (fun hc => hhe ((head_indexAny after ha).1 hc)), bind_ok, bind_ok,
              ← hlen2, hsplit, liftGo_ok, bind_ok] at h
            simp only at h
            have hhd : ∀ x t, after = x :: t → isHostEnd x = true := by
              rintro x t rfl
              simpa using hhe
            rw [stagePortPath_eq after _ rfl rfl hhd] at h
            cases hpp : portPath after with
            | none => rw [hpp] at h; simp [fail, bind_error] at h
            | some p => rw [hpp] at h; simp [bind_ok] at h
      · simp only [h6, Bool.not_false, if_true, Bool.false_eq_true, if_false] at h
        simp [fail, bind_error] at h

/-! ## Extract -/

theorem extractH_readsIn (idna : Idna) (e : URLParams) :
    (∃ v, extractH idna e = .ret v) ∨
    (∃ (k : Ref → MProg (Go (ExtractResult × Option Err))) (host after n : Bytes) (u : ExtractResult), extractH idna e = .call .loadRoot k ∧
      (Authority e.url u.scheme u.userInfo (host ++ after) ∧ IsPlainHost host ∧
        AfterHost after u.port u.path ∧ HostTextOf idna e.convertURLToPunyCode host n) ∧
      ∀ F r t d, Rep F r t → t.Within d →
        ∃ v, (k r).readsIn F v (readBound ((hostSplit n).2.length + 1 - leadEmpty (hostSplit n).2) d)) := by
  unfold extractH
  cases hb : beforeHost idna e with
  | error s => exact .inl ⟨returned (.error s), rfl⟩
  | ok b =>
    cases b with
    | inl r => exact .inl ⟨.ok r, rfl⟩
    | inr nu =>
      obtain ⟨n, u⟩ := nu
      obtain ⟨host, after, h1, h2, h3, h4⟩ := beforeHost_name hb
      refine .inr ⟨_, host, after, n, u, rfl, ⟨h1, h2, h3, h4⟩, fun F r t d hr hd => ?_⟩
      have hj := hostSplit_join n
      have := walkLoopH_readsIn (hostSplit_good n) u (n.length + 2) hr hd false
        { hasSuffix := false, previousSepIdx := 0, sepIdx := n.length, suffixStartIdx := n.length, suffixEndIdx := n.length }
        (k := 0) (by omega) (by rw [pos_zero, hj])
      simp only [Bool.false_eq_true, if_false, List.drop_zero, Nat.zero_add] at this
      rw [hj] at this
      obtain ⟨wv, this⟩ : ∃ wv, MProg.readsIn F wv _ _ := ⟨_, this⟩
      refine ⟨returned (wv >>= afterWalk e n u), ?_⟩
      dsimp only [MProg.bind]
      exact MProg.readsIn_bind (m := 0) this (MProg.readsIn_ret F _ 0)

theorem job_readsIn (idna : Idna) (e : URLParams) :
    (∃ v, (Job.extract e).prog idna = .ret v) ∨
    (∃ (k : Ref → MProg Outcome) (host after n : Bytes) (u : ExtractResult), (Job.extract e).prog idna = .call .loadRoot k ∧
      (Authority e.url u.scheme u.userInfo (host ++ after) ∧ IsPlainHost host ∧
        AfterHost after u.port u.path ∧ HostTextOf idna e.convertURLToPunyCode host n) ∧
      ∀ F r t d, Rep F r t → t.Within d →
        ∃ v, (k r).readsIn F v (readBound ((hostSplit n).2.length + 1 - leadEmpty (hostSplit n).2) d)) := by
  have hj : (Job.extract e).prog idna = (extractH idna e).bind fun r => .ret (.extracted r) := rfl
  rw [hj]
  rcases extractH_readsIn idna e with ⟨v, h1⟩ | ⟨k, host, after, n, u, h1, h2, h3⟩
  · rw [h1]; exact .inl ⟨_, rfl⟩
  · rw [h1]
    refine .inr ⟨_, host, after, n, u, rfl, h2, fun F r t d hr hd => ?_⟩
    obtain ⟨v, hv⟩ := h3 F r t d hr hd
    exact ⟨_, MProg.readsIn_bind (m := 0) hv rfl⟩

/-! ## Loads only -/

theorem onlyLoads_bind {α γ : Type} {p : MProg α} {f : α → MProg γ} (h : OnlyLoads p) (hf : ∀ a, OnlyLoads (f a)) :
    OnlyLoads (p.bind f) := by
  induction p with
  | ret a => exact hf a
  | call o k ih => exact ⟨h.1, fun b => ih b (h.2 b)⟩

theorem endH_loads (y : Ref) (w : Walk) : OnlyLoads (endH y w) := by
  unfold endH
  split
  · exact ⟨trivial, fun b => trivial⟩
  · trivial

theorem walkLabelH_loads (netloc : Bytes) (node : Ref) (label : Bytes) (isLast : Bool) (w : Walk)
    {c : Ref → Walk → MProg (M Walk)} (hc : ∀ y w, OnlyLoads (c y w)) :
    OnlyLoads (walkLabelH netloc node label isLast w c) := by
  unfold walkLabelH
  refine ⟨trivial, fun b => ?_⟩
  dsimp only [MProg.bind]
  cases b with
  | some _ =>
    refine ⟨trivial, fun b => ?_⟩
    cases b <;> trivial
  | none =>
    refine ⟨trivial, fun b => ?_⟩
    dsimp only [MProg.bind]
    cases b with
    | none => trivial
    | some val =>
      refine onlyLoads_bind (endH_loads _ _) fun w' => ⟨trivial, fun n => ?_⟩
      dsimp only [MProg.bind]
      split
      · trivial
      · split
        · trivial
        · exact hc _ _

theorem walkLoopH_loads (netloc : Bytes) (u : ExtractResult) (fuel : Nat) (node : Ref) (hasLabels : Bool) (w : Walk) :
    OnlyLoads (walkLoopH netloc u fuel node hasLabels w) := by
  induction fuel generalizing node hasLabels w with
  | zero => trivial
  | succ fuel ih =>
    rw [walkLoopH]
    split
    · trivial
    · exact ih _ _ _
    · exact walkLabelH_loads _ _ _ _ _ fun y w => ih _ _ _
    · exact walkLabelH_loads _ _ _ _ _ fun y w => trivial

theorem extractH_loads (idna : Idna) (e : URLParams) : OnlyLoads (extractH idna e) := by
  unfold extractH
  cases beforeHost idna e with
  | error s => trivial
  | ok b =>
    cases b with
    | inl r => trivial
    | inr nu =>
      refine ⟨trivial, fun r => ?_⟩
      dsimp only [MProg.bind]
      exact onlyLoads_bind (walkLoopH_loads _ _ _ _ _ _) fun _ => trivial

/-! ## Goroutines -/

theorem Installed.within {jobs : List Job} {rules0 rules : List Bytes} {s : Sys} {d : Nat} (h : Installed jobs rules0 s rules)
    (hd : RulesWithin d rules0) (hu : ∀ (j : Nat) rl, jobs[j]? = some (.update rl) → RulesWithin d rl) : RulesWithin d rules := by
  rcases h with rfl | ⟨j, h1, -⟩
  · exact hd
  · exact hu j _ h1

theorem StepsOf.ret {idna : Idna} {jobs : List Job} {rules0 : List Bytes} {s0 s : Sys} (h0 : Start idna jobs rules0 s0)
    {i n : Nat} {e : URLParams} (hi : jobs[i]? = some (.extract e)) (h : StepsOf i n s0 s) {v : Outcome}
    (hv : (Job.extract e).prog idna = .ret v) : n = 0 ∧ s.threads[i]? = some (.ret v) := by
  induction h with
  | refl => exact ⟨rfl, by rw [h0.threads, List.getElem?_map, hi, ← hv]; rfl⟩
  | own _ hs ih =>
    cases hs with
    | mk h1 _ => rw [(ih h0).2] at h1; cases h1
  | other _ hj hs ih =>
    refine ⟨(ih h0).1, ?_⟩
    cases hs with
    | mk h1 _ => dsimp only; rw [List.getElem?_set_ne hj]; exact (ih h0).2

theorem StepsOf.count {idna : Idna} {jobs : List Job} {rules0 : List Bytes} {s0 s : Sys} (h0 : Start idna jobs rules0 s0)
    {i n d B : Nat} {e : URLParams} (hi : jobs[i]? = some (.extract e)) (hd : RulesWithin d rules0)
    (hu : ∀ (j : Nat) rl, jobs[j]? = some (.update rl) → RulesWithin d rl) {k : Ref → MProg Outcome}
    (hk : (Job.extract e).prog idna = .call .loadRoot k)
    (hB : ∀ F r t, Rep F r t → t.Within d → ∃ v, (k r).readsIn F v B) (h : StepsOf i n s0 s) :
    ∃ F Os, Inv idna jobs rules0 (fun _ => none) s F Os ∧ ∃ p, s.threads[i]? = some p ∧
      ((n = 0 ∧ p = .call .loadRoot k) ∨ ∃ v b, p.readsIn F v b ∧ n + b ≤ 1 + B) := by
  induction h with
  | refl => exact ⟨_, _, h0.inv, _, by rw [h0.threads, List.getElem?_map, hi]; exact congrArg some hk, .inl ⟨rfl, rfl⟩⟩
  | own _ hs ih =>
    obtain ⟨F, Os, hI, p, hp, hc⟩ := ih h0
    obtain ⟨F', Os', hsub, hI', -⟩ := hI.step hs
    refine ⟨F', Os', hI', ?_⟩
    obtain ⟨rules, hr1, hr2⟩ := hI.root
    cases hs with
    | @mk β o k' b m' h1 hdo =>
      rw [hp] at h1
      cases h1
      refine ⟨k' b, by dsimp only; rw [List.getElem?_set_self (List.getElem?_eq_some_iff.1 hp).1], .inr ?_⟩
      rcases hc with ⟨rfl, hc⟩ | ⟨v, c, hc, hle⟩
      · cases hc
        obtain ⟨rfl, -⟩ := hdo
        obtain ⟨v, hv⟩ := hB F _ _ (Rep.of_holds hr1) (within_build (hr2.within hd hu))
        exact ⟨v, B, MProg.readsIn_mono hsub (Nat.le_refl _) hv, by omega⟩
      · cases c with
        | zero => exact hc.elim
        | succ c =>
          obtain ⟨-, hv⟩ := MOp.sees_step hc hI.subF hdo
          exact ⟨v, c, MProg.readsIn_mono hsub (Nat.le_refl _) hv, by omega⟩
  | other _ hj hs ih =>
    obtain ⟨F, Os, hI, p, hp, hc⟩ := ih h0
    obtain ⟨F', Os', hsub, hI', -⟩ := hI.step hs
    refine ⟨F', Os', hI', p, ?_, ?_⟩
    · cases hs with
      | mk h1 _ => dsimp only; rw [List.getElem?_set_ne hj]; exact hp
    · rcases hc with hc | ⟨v, b, hc, hle⟩
      · exact .inl hc
      · exact .inr ⟨v, b, MProg.readsIn_mono hsub (Nat.le_refl _) hc, hle⟩

end Fasttld
