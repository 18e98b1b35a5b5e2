import Verif.Spec.Behaviour
import Verif.Proofs.Torn

/-!
# What New and Update do
-/

set_option linter.unusedSimpArgs false

namespace Fasttld
open Spec

theorem opens_some {w w1 : World} {h} (ho : w.openForWriting (defaultPath w) = (some h, w1)) :
    h = w.loc (defaultPath w) ∧ ∃ g, Opens w g ∧ CacheIs w w1 g ∧ w1.net = w.net ∧ w1.seekWorks = w.seekWorks ∧
      w1.writeStops = w.writeStops ∧ w1.clock = w.clock := by
  unfold World.openForWriting at ho
  split at ho
  · rename_i hn
    split at ho
    · rename_i hc
      simp only [Prod.mk.injEq, Option.some.injEq] at ho
      obtain ⟨rfl, rfl⟩ := ho
      exact ⟨rfl, _, .created hn hc, ⟨if_pos rfl, fun i hi => if_neg hi, rfl, rfl, rfl⟩, rfl, rfl, rfl, rfl⟩
    · simp at ho
  · simp at ho
  · rename_i g hn
    split at ho
    · rename_i hw
      simp only [Prod.mk.injEq, Option.some.injEq] at ho
      obtain ⟨rfl, rfl⟩ := ho
      exact ⟨rfl, g, .old hn hw, ⟨hn, fun _ _ => rfl, rfl, rfl, rfl⟩, rfl, rfl, rfl, rfl⟩
    · simp at ho

theorem opens_none {w w1 : World} (ho : w.openForWriting (defaultPath w) = (none, w1)) : w1 = w ∧ ∀ g, ¬ Opens w g := by
  unfold World.openForWriting at ho
  split at ho
  · rename_i hn
    split at ho
    · simp at ho
    · rename_i hc
      simp only [Prod.mk.injEq, true_and] at ho
      refine ⟨ho.symm, fun g hg => ?_⟩
      cases hg with
      | old h => rw [hn] at h; cases h
      | created _ h => exact hc h
  · rename_i t hn
    simp only [Prod.mk.injEq, true_and] at ho
    refine ⟨ho.symm, fun g hg => ?_⟩
    cases hg with
    | old h => rw [hn] at h; cases h
    | created h => rw [hn] at h; cases h
  · rename_i f hn
    split at ho
    · simp at ho
    · rename_i hw
      simp only [Prod.mk.injEq, true_and] at ho
      refine ⟨ho.symm, fun g hg => ?_⟩
      cases hg with
      | old h h' => rw [hn] at h; cases h; exact hw h'
      | created h => rw [hn] at h; cases h

theorem opens_unique {w : World} {g g'} (h : Opens w g) (h' : Opens w g') : g = g' := by
  cases h with
  | old h => cases h' with
    | old h' => rw [h] at h'; cases h'; rfl
    | created h' => rw [h] at h'; cases h'
  | created h => cases h' with
    | old h' => rw [h] at h'; cases h'
    | created => rfl

/-- A world in which only the cache file differs. -/
structure Like (w : World) (g : WFile) (w1 : World) : Prop where
  cache : CacheIs w w1 g
  net : w1.net = w.net
  seek : w1.seekWorks = w.seekWorks
  stops : w1.writeStops = w.writeStops
  clock : w1.clock = w.clock

theorem Like.put {w w1 : World} {g} (h : Like w g w1) (data : Bytes) :
    Like w (overwritten w g data) (w1.rewind.put (w.loc (defaultPath w)) data) := by
  obtain ⟨h1, h2, h3, h4, h5⟩ := h.cache
  rw [put_file (w := w1.rewind) h1]
  refine ⟨⟨?_, fun i hi => ?_, h3, h4, h5⟩, h.net, h.seek, h.stops, h.clock⟩
  · simp [overwritten, World.rewind, writeAt_zero, h.clock]
  · simp [hi, World.rewind, h2 i hi]

/-- The loop over the sources. -/
theorem exec_refreshed {w : World} {sources : List Bytes} {w1 : World} {g} (h : Like w g w1) :
    ∃ g' ok w2 evs, (update (w.loc (defaultPath w)) sources).exec w1 = (ok, w2, evs) ∧
      Refreshed w sources g g' (evs.filterMap urlOf) ok ∧ Like w g' w2 := by
  induction sources generalizing w1 g with
  | nil => exact ⟨g, false, w1, [], rfl, .exhausted g, h⟩
  | cons url rest ih =>
    simp only [update, exec_bind]
    obtain ⟨r, hr1, hr2⟩ := exec_downloadFile w1 url
    rw [hr1]
    rcases hr2 with ⟨body, rfl, hnet⟩ | ⟨rfl, hn⟩
    · simp only
      split
      · rename_i hv
        obtain ⟨g', ok, w2, evs, e1, e2, e3⟩ := ih h
        rw [e1]
        refine ⟨g', ok, w2, _, rfl, ?_, e3⟩
        refine .skipped (.inl fun b hb => ?_) e2
        have := hb.1
        rw [← h.net, hnet] at this
        simp only [Response.status.injEq, true_and, and_true] at this
        have hv2 := (validPSLDelimiters_iff b).2 hb.2
        rw [this, hv2] at hv
        simp at hv
      · rename_i hv
        have ho : Offers w url body := ⟨by rw [← h.net]; exact hnet, by
          rw [← validPSLDelimiters_iff]; simpa using hv⟩
        simp only [exec_bind, exec_ask, Op.answer]
        rcases Bool.eq_false_or_eq_true w1.seekWorks with hs | hs
        · simp only [hs, if_true, Bool.not_true, Bool.false_eq_true, if_false, exec_bind, exec_ask, Op.answer]
          have hws : w1.rewind.writeStops = w.writeStops := h.stops
          have hs' : w.seekWorks = true := by rw [← h.seek]; exact hs
          cases hw : w.writeStops body with
          | some k =>
            have ht : body.take (w1.rewind.written body) = body.take k := by
              simp only [World.written, hws, hw]
              rw [List.take_eq_take_iff]; omega
            obtain ⟨g', ok, w2, evs, e1, e2, e3⟩ := ih (h.put (body.take k))
            simp only [hws, hw, Option.isNone_some, Bool.not_false, if_true, ht, e1]
            exact ⟨g', ok, w2, _, rfl, .stopped ho hs' hw e2, e3⟩
          | none =>
            have ht : body.take (w1.rewind.written body) = body := by
              simp [World.written, hws, hw]
            simp only [hws, hw, Option.isNone_none, Bool.not_true, Bool.false_eq_true, if_false, exec_pure, ht]
            exact ⟨_, true, _, _, rfl, .written ho hs' hw, h.put body⟩
        · obtain ⟨g', ok, w2, evs, e1, e2, e3⟩ := ih h
          simp only [hs, Bool.false_eq_true, if_false, Bool.not_false, if_true, e1]
          exact ⟨g', ok, w2, _, rfl, .skipped (.inr (by rw [← h.seek]; exact hs)) e2, e3⟩
    · obtain ⟨g', ok, w2, evs, e1, e2, e3⟩ := ih h
      simp only [e1]
      exact ⟨g', ok, w2, _, rfl, .skipped (.inl fun b hb => hn b (by rw [h.net]; exact hb.1)) e2, e3⟩

theorem offers_unique {w : World} {url b b'} (h : Offers w url b) (h' : Offers w url b') : b = b' := by
  have := h.1.symm.trans h'.1
  simpa using this

theorem not_skipped {w : World} {url body} (h : (∀ body, ¬ Offers w url body) ∨ w.seekWorks = false) :
    ¬ (Offers w url body ∧ w.seekWorks = true) := by
  rintro ⟨h1, h2⟩
  rcases h with h | h
  · exact h _ h1
  · rw [h2] at h; cases h

theorem refreshed_unique {w : World} {sources g g1 a1 ok1 g2 a2 ok2} (h : Refreshed w sources g g1 a1 ok1)
    (h' : Refreshed w sources g g2 a2 ok2) : g1 = g2 ∧ a1 = a2 ∧ ok1 = ok2 := by
  induction h generalizing g2 a2 ok2 with
  | exhausted g => cases h'; exact ⟨rfl, rfl, rfl⟩
  | skipped hno _ ih =>
    cases h' with
    | skipped _ h' => obtain ⟨h1, h2, h3⟩ := ih h'; exact ⟨h1, by rw [h2], h3⟩
    | stopped ho hs => exact absurd ⟨ho, hs⟩ (not_skipped hno)
    | written ho hs => exact absurd ⟨ho, hs⟩ (not_skipped hno)
  | stopped ho hs hw _ ih =>
    cases h' with
    | skipped hno => exact absurd ⟨ho, hs⟩ (not_skipped hno)
    | stopped ho' _ hw' h' =>
      cases offers_unique ho ho'
      rw [hw] at hw'; cases hw'
      obtain ⟨h1, h2, h3⟩ := ih h'; exact ⟨h1, by rw [h2], h3⟩
    | written ho' _ hw' =>
      cases offers_unique ho ho'
      rw [hw] at hw'; cases hw'
  | written ho hs hw =>
    cases h' with
    | skipped hno => exact absurd ⟨ho, hs⟩ (not_skipped hno)
    | stopped ho' _ hw' =>
      cases offers_unique ho ho'
      rw [hw] at hw'; cases hw'
    | written ho' _ hw' =>
      cases offers_unique ho ho'
      exact ⟨rfl, rfl, rfl⟩

theorem quiet_urls {evs : List Event} (h : ∀ e ∈ evs, ¬ IsWrite e ∧ ¬ IsNetwork e) : evs.filterMap urlOf = [] := by
  rw [List.filterMap_eq_nil_iff]
  intro e he
  have := (h e he).2
  cases e <;> simp_all [urlOf, IsNetwork]

theorem sameFiles_refl (w : World) : SameFiles w w := ⟨rfl, rfl, rfl, rfl⟩

/-- Update does what the specification says. -/
theorem exec_updateDoes (idna : Idna) (hard : Bytes) (f : FastTLD) (w : World) {f' err w' evs}
    (he : (f.update idna hard).exec w = ((f', err), w', evs)) : UpdateDoes idna f w f' err (evs.filterMap urlOf) w' := by
  rcases exec_update_eq idna hard f w with ⟨hp, h⟩ | ⟨hp, ⟨ho, h⟩ | ⟨hd, w1, ok, w2, e2, ho, hu, h⟩⟩
  · rw [h] at he
    simp only [Prod.mk.injEq] at he
    obtain ⟨⟨rfl, rfl⟩, rfl, rfl⟩ := he
    exact .otherFile hp (sameFiles_refl _)
  · rw [h] at he
    simp only [Prod.mk.injEq] at he
    obtain ⟨⟨rfl, rfl⟩, rfl, rfl⟩ := he
    exact .cannotOpen hp (opens_none ho).2 (sameFiles_refl _)
  · obtain ⟨hloc, g, hg, hc, h1, h2, h3, h4⟩ := opens_some ho
    subst hloc
    obtain ⟨g', ok', w2', e2', hx, hr, hl⟩ := exec_refreshed (sources := publicSuffixListSources) ⟨hc, h1, h2, h3, h4⟩
    rw [hx] at hu
    simp only [Prod.mk.injEq] at hu
    obtain ⟨rfl, rfl, rfl⟩ := hu
    have hread : w2'.read (defaultPath w) = if g'.readable then some g'.content else none := by
      rw [World.read, hl.cache.2.2.1, hl.cache.1]
    have urls : ∀ {evs'}, (∀ e ∈ evs', ¬ IsWrite e ∧ ¬ IsNetwork e) →
        (Event.tempDir w.tmp :: .openWrite (defaultPath w) (some (w.loc (defaultPath w))) :: (e2' ++ evs')).filterMap urlOf =
          e2'.filterMap urlOf := by
      intro evs' hq
      rw [List.filterMap_cons_none rfl, List.filterMap_cons_none rfl, List.filterMap_append, quiet_urls hq, List.append_nil]
    rcases h with ⟨rfl, evs', hq, h⟩ | ⟨rfl, evs', hq, h⟩
    · rw [h] at he
      simp only [Prod.mk.injEq] at he
      obtain ⟨⟨rfl, rfl⟩, rfl, rfl⟩ := he
      rw [urls hq]
      exact .noList hp hg hr hl.cache
    · rw [h, hread] at he
      cases hrd : g'.readable with
      | false =>
        simp only [hrd, Bool.false_eq_true, if_false, Prod.mk.injEq] at he
        obtain ⟨⟨rfl, rfl⟩, rfl, rfl⟩ := he
        rw [urls hq]
        exact .cannotRead hp hg hr hrd hl.cache
      | true =>
        simp only [hrd, if_true, Prod.mk.injEq] at he
        obtain ⟨⟨rfl, rfl⟩, rfl, rfl⟩ := he
        rw [urls hq]
        exact .done hp hg hr hrd hl.cache rfl rfl rfl

theorem cacheIs_sameFiles {w w' w'' : World} {g} (h : CacheIs w w' g) (h' : CacheIs w w'' g) : SameFiles w' w'' := by
  refine ⟨?_, h'.2.2.1.trans h.2.2.1.symm, h'.2.2.2.1.trans h.2.2.2.1.symm, h'.2.2.2.2.trans h.2.2.2.2.symm⟩
  funext i
  by_cases hi : i = w.loc (defaultPath w)
  · rw [hi, h.1, h'.1]
  · rw [h.2.1 i hi, h'.2.1 i hi]

theorem sameFiles_common {w w' w'' : World} (h : SameFiles w w') (h' : SameFiles w w'') : SameFiles w' w'' :=
  ⟨h'.1.trans h.1.symm, h'.2.1.trans h.2.1.symm, h'.2.2.1.trans h.2.2.1.symm, h'.2.2.2.trans h.2.2.2.symm⟩

theorem serves_unique {idna : Idna} {f f' : FastTLD} {c p i} (h : Serves idna f c) (hp : f.cacheFilePath = p)
    (hi : f.includePrivateSuffix = i) (h' : Serves idna f' c) (hp' : f'.cacheFilePath = p) (hi' : f'.includePrivateSuffix = i) :
    f = f' := by
  obtain ⟨a, b, c⟩ := f
  obtain ⟨a', b', c'⟩ := f'
  simp only [Serves] at *
  subst hp hi hp' hi'
  rw [h, h']

/-- The specification of Update leaves no choice. -/
theorem updateDoes_unique {idna : Idna} {f f0 : FastTLD} {w : World} (hp : f0.cacheFilePath = f.cacheFilePath)
    (hi : f0.includePrivateSuffix = f.includePrivateSuffix) {f1 e1 a1 w1 f2 e2 a2 w2}
    (h : UpdateDoes idna f w f1 e1 a1 w1) (h' : UpdateDoes idna f0 w f2 e2 a2 w2) :
    (f0 = f ∨ e1 = none → f1 = f2) ∧ e1 = e2 ∧ a1 = a2 ∧ SameFiles w1 w2 := by
  cases h with
  | otherFile h hw =>
    cases h' with
    | otherFile h' hw' => exact ⟨fun h => h.elim Eq.symm (by simp), rfl, rfl, sameFiles_common hw hw'⟩
    | _ => exact absurd (hp ▸ by assumption) h
  | cannotOpen h ho hw =>
    cases h' with
    | otherFile h' hw' => exact absurd (hp.trans h) h'
    | cannotOpen h' ho' hw' => exact ⟨fun h => h.elim Eq.symm (by simp), rfl, rfl, sameFiles_common hw hw'⟩
    | noList _ ho' => exact absurd ho' (ho _)
    | cannotRead _ ho' => exact absurd ho' (ho _)
    | done _ ho' => exact absurd ho' (ho _)
  | noList h ho hr hw =>
    cases h' with
    | otherFile h' hw' => exact absurd (hp.trans h) h'
    | cannotOpen _ ho' => exact absurd ho (ho' _)
    | noList _ ho' hr' hw' =>
      cases opens_unique ho ho'
      obtain ⟨rfl, rfl, -⟩ := refreshed_unique hr hr'
      exact ⟨fun h => h.elim Eq.symm (by simp), rfl, rfl, cacheIs_sameFiles hw hw'⟩
    | cannotRead _ ho' hr' =>
      cases opens_unique ho ho'
      cases (refreshed_unique hr hr').2.2
    | done _ ho' hr' =>
      cases opens_unique ho ho'
      cases (refreshed_unique hr hr').2.2
  | cannotRead h ho hr hf hw =>
    cases h' with
    | otherFile h' hw' => exact absurd (hp.trans h) h'
    | cannotOpen _ ho' => exact absurd ho (ho' _)
    | noList _ ho' hr' hw' =>
      cases opens_unique ho ho'
      cases (refreshed_unique hr hr').2.2
    | cannotRead _ ho' hr' hf' hw' =>
      cases opens_unique ho ho'
      obtain ⟨rfl, rfl, -⟩ := refreshed_unique hr hr'
      exact ⟨fun h => h.elim Eq.symm (by simp), rfl, rfl, cacheIs_sameFiles hw hw'⟩
    | done _ ho' hr' hf' =>
      cases opens_unique ho ho'
      obtain ⟨rfl, -, -⟩ := refreshed_unique hr hr'
      rw [hf] at hf'; cases hf'
  | done h ho hr hf hw h1 h2 h3 =>
    cases h' with
    | otherFile h' hw' => exact absurd (hp.trans h) h'
    | cannotOpen _ ho' => exact absurd ho (ho' _)
    | noList _ ho' hr' hw' =>
      cases opens_unique ho ho'
      cases (refreshed_unique hr hr').2.2
    | cannotRead _ ho' hr' hf' hw' =>
      cases opens_unique ho ho'
      obtain ⟨rfl, -, -⟩ := refreshed_unique hr hr'
      rw [hf] at hf'; cases hf'
    | done _ ho' hr' hf' hw' h1' h2' h3' =>
      cases opens_unique ho ho'
      obtain ⟨rfl, rfl, -⟩ := refreshed_unique hr hr'
      exact ⟨fun _ => serves_unique h1 h2 h3 h1' (h2'.trans hp) (h3'.trans hi), rfl, rfl, cacheIs_sameFiles hw hw'⟩

theorem hasFile_unique {idna : Idna} {hard n w p x x'} (h : HasFile idna hard n w p x) (h' : HasFile idna hard n w p x') :
    x = x' := by
  rcases h with ⟨hp, c, hc, h1, h2, h3⟩ | ⟨hp, h1, h2, h3⟩
  · rcases h' with ⟨hp', c', hc', h1', h2', h3'⟩ | ⟨hp', h1', h2', h3'⟩
    · rw [hc] at hc'; cases hc'
      exact serves_unique h1 h2 h3 h1' h2' h3'
    · rcases hp' with hp' | hp'
      · exact absurd hp' hp
      · rw [hc] at hp'; cases hp'
  · rcases h' with ⟨hp', c', hc', h1', h2', h3'⟩ | ⟨hp', h1', h2', h3'⟩
    · rcases hp with hp | hp
      · exact absurd hp hp'
      · rw [hp] at hc'; cases hc'
    · exact serves_unique h1 h2 h3 h1' h2' h3'

theorem builtIn_unique {idna : Idna} {hard n x x'} (h : BuiltIn idna hard n x) (h' : BuiltIn idna hard n x') : x = x' :=
  serves_unique h.1 h.2.1 h.2.2 h'.1 h'.2.1 h'.2.2

theorem hasFile_exec (idna : Idna) (hard : Bytes) (n : SuffixListParams) (w : World) (p : Bytes) :
    ∃ x, ((finishNew idna hard n (blank n p)).exec w).1 = (x, none) ∧ HasFile idna hard n w p x := by
  obtain ⟨evs, -, h⟩ := exec_finishNew idna hard n (blank n p) w
  rw [h]
  by_cases hp : p = []
  · refine ⟨_, by simp [blank, hp]; rfl, .inr ⟨.inl hp, ?_⟩⟩
    exact ⟨by simp [Serves], hp ▸ rfl, rfl⟩
  · cases hr : w.read p with
    | none =>
      refine ⟨builtIn idna hard n, by simp [blank, hp, hr, builtIn], .inr ⟨.inr hr, ?_⟩⟩
      exact ⟨rfl, rfl, rfl⟩
    | some c =>
      refine ⟨⟨p, trieOfText idna n.includePrivateSuffix c, n.includePrivateSuffix⟩, by simp [blank, hp, hr], .inl ⟨hp, c, hr, ?_⟩⟩
      exact ⟨rfl, rfl, rfl⟩

/-- New does what the specification says. -/
theorem exec_newDoes (idna : Idna) (hard : Bytes) (n : SuffixListParams) (w : World) {x err w' evs}
    (he : (new idna hard n).exec w = ((x, err), w', evs)) : err = none ∧ NewDoes idna hard n w x (evs.filterMap urlOf) w' := by
  by_cases hcu : ∃ c t, Usable w n.cacheFilePath c t
  · obtain ⟨c, t, hu⟩ := hcu
    obtain ⟨evs', hq, h⟩ := exec_new_custom idna hard n w hu
    obtain ⟨x', hx1, hx2⟩ := hasFile_exec idna hard n w n.cacheFilePath
    rw [h, hx1] at he
    simp only [Prod.mk.injEq] at he
    obtain ⟨⟨rfl, rfl⟩, rfl, rfl⟩ := he
    rw [quiet_urls hq]
    exact ⟨rfl, .custom hu hx2 (sameFiles_refl _)⟩
  · have hcu : ∀ c t, ¬ Usable w n.cacheFilePath c t := fun c t hu => hcu ⟨c, t, hu⟩
    cases hd : w.canOpenDir w.tmp with
    | false =>
      obtain ⟨evs', hq, h⟩ := exec_new_noDir idna hard n w hcu hd
      rw [h] at he
      simp only [Prod.mk.injEq] at he
      obtain ⟨⟨rfl, rfl⟩, rfl, rfl⟩ := he
      rw [quiet_urls hq]
      exact ⟨rfl, .noFolder hcu hd (x := builtIn idna hard n) ⟨rfl, rfl, rfl⟩ (sameFiles_refl _)⟩
    | true =>
      by_cases hf : Fresh w
      · obtain ⟨c, t, hu, ht⟩ := id hf
        obtain ⟨evs', hq, h⟩ := exec_new_fresh idna hard n w hcu hd hu (by omega)
        obtain ⟨x', hx1, hx2⟩ := hasFile_exec idna hard n w (defaultPath w)
        rw [h, hx1] at he
        simp only [Prod.mk.injEq] at he
        obtain ⟨⟨rfl, rfl⟩, rfl, rfl⟩ := he
        rw [quiet_urls hq]
        exact ⟨rfl, .fresh hcu hd hf hx2 (sameFiles_refl _)⟩
      · obtain ⟨evs', hq, h⟩ := exec_new_stale idna hard n w hcu hd (fun c t hu => Int.not_le.1 fun h => hf ⟨c, t, hu, h⟩)
        rcases hu : ((blank n (defaultPath w)).update idna hard).exec w with ⟨⟨y, err'⟩, w2, e2⟩
        have hdo := exec_updateDoes idna hard _ w hu
        rw [h, hu] at he
        cases err' with
        | none =>
          simp only [Prod.mk.injEq] at he
          obtain ⟨⟨rfl, rfl⟩, rfl, rfl⟩ := he
          rw [List.filterMap_append, quiet_urls hq, List.nil_append]
          exact ⟨rfl, .updated hcu hd hf (f := blank n (defaultPath w)) rfl rfl hdo⟩
        | some err' =>
          simp only [Prod.mk.injEq] at he
          obtain ⟨⟨rfl, rfl⟩, rfl, rfl⟩ := he
          rw [List.filterMap_append, quiet_urls hq, List.nil_append]
          exact ⟨rfl, .notUpdated hcu hd hf (f := blank n (defaultPath w)) rfl rfl hdo (x := builtIn idna hard n) ⟨rfl, rfl, rfl⟩⟩

/-- The specification of New leaves no choice. -/
theorem newDoes_unique {idna : Idna} {hard n} {w : World} {x1 a1 w1 x2 a2 w2}
    (h : NewDoes idna hard n w x1 a1 w1) (h' : NewDoes idna hard n w x2 a2 w2) : x1 = x2 ∧ a1 = a2 ∧ SameFiles w1 w2 := by
  cases h with
  | custom hu hx hw =>
    cases h' with
    | custom hu' hx' hw' => exact ⟨hasFile_unique hx hx', rfl, sameFiles_common hw hw'⟩
    | noFolder h => exact absurd hu (h _ _)
    | fresh h => exact absurd hu (h _ _)
    | updated h => exact absurd hu (h _ _)
    | notUpdated h => exact absurd hu (h _ _)
  | noFolder h hd hx hw =>
    cases h' with
    | custom hu => exact absurd hu (h _ _)
    | noFolder _ _ hx' hw' => exact ⟨builtIn_unique hx hx', rfl, sameFiles_common hw hw'⟩
    | fresh _ hd' => rw [hd] at hd'; cases hd'
    | updated _ hd' => rw [hd] at hd'; cases hd'
    | notUpdated _ hd' => rw [hd] at hd'; cases hd'
  | fresh h hd hf hx hw =>
    cases h' with
    | custom hu => exact absurd hu (h _ _)
    | noFolder _ hd' => rw [hd] at hd'; cases hd'
    | fresh _ _ _ hx' hw' => exact ⟨hasFile_unique hx hx', rfl, sameFiles_common hw hw'⟩
    | updated _ _ hf' => exact absurd hf hf'
    | notUpdated _ _ hf' => exact absurd hf hf'
  | updated h hd hf hp hi hu =>
    cases h' with
    | custom hu => exact absurd hu (h _ _)
    | noFolder _ hd' => rw [hd] at hd'; cases hd'
    | fresh _ _ hf' => exact absurd hf' hf
    | updated _ _ _ hp' hi' hu' =>
      obtain ⟨h1, -, h3, h4⟩ := updateDoes_unique (hp'.trans hp.symm) (hi'.trans hi.symm) hu hu'
      exact ⟨h1 (.inr rfl), h3, h4⟩
    | notUpdated _ _ _ hp' hi' hu' =>
      cases (updateDoes_unique (hp'.trans hp.symm) (hi'.trans hi.symm) hu hu').2.1
  | notUpdated h hd hf hp hi hu hx =>
    cases h' with
    | custom hu => exact absurd hu (h _ _)
    | noFolder _ hd' => rw [hd] at hd'; cases hd'
    | fresh _ _ hf' => exact absurd hf' hf
    | updated _ _ _ hp' hi' hu' =>
      cases (updateDoes_unique (hp'.trans hp.symm) (hi'.trans hi.symm) hu hu').2.1
    | notUpdated _ _ _ hp' hi' hu' hx' =>
      obtain ⟨-, -, h3, h4⟩ := updateDoes_unique (hp'.trans hp.symm) (hi'.trans hi.symm) hu hu'
      exact ⟨builtIn_unique hx hx', h3, h4⟩

/-! ## Crashes -/

theorem crash_left {α γ : Type} {p : Prog α} {f : α → Prog γ} {w w' : World} (h : Crash p w w') : Crash (p >>= f) w w' := by
  show Crash (p.bind f) w w'
  induction h with
  | here p w => exact .here _ _
  | step _ ih => exact .step ih
  | torn h => exact .torn h

theorem crash_right {α γ : Type} {p : Prog α} {f : α → Prog γ} {w w' : World}
    (h : Crash (f (p.exec w).1) (p.exec w).2.1 w') : Crash (p >>= f) w w' := by
  show Crash (p.bind f) w w'
  induction p generalizing w with
  | ret a => exact h
  | call o k ih => exact .step (ih _ h)

theorem crash_loop {w : World} {w1 : World} {g : WFile} {sources : List Bytes} {url body : Bytes} (hl : Like w g w1)
    (hs : w.seekWorks = true) (hf : FirstOffer w sources url body) (k : Nat) :
    Crash (update (w.loc (defaultPath w)) sources) w1 (w1.rewind.put (w.loc (defaultPath w)) (body.take k)) := by
  obtain ⟨pre, post, rfl, h1, h2⟩ := hf
  induction pre with
  | nil =>
    rw [List.nil_append, update]
    obtain ⟨r, hr1, hr2⟩ := exec_downloadFile w1 url
    refine crash_right ?_
    rw [hr1]
    rcases hr2 with ⟨body', rfl, hnet⟩ | ⟨rfl, hn⟩
    · have hb : body' = body := by have := h2.1; rw [← hl.net, hnet] at this; simpa using this
      subst hb
      have hsw : w1.seekWorks = true := by rw [hl.seek]; exact hs
      simp only [(validPSLDelimiters_iff body').2 h2.2, Bool.not_true, Bool.false_eq_true, if_false]
      refine crash_right ?_
      simp only [exec_ask, Op.answer, hsw, if_true, Bool.not_true, Bool.false_eq_true, if_false]
      exact crash_left (.torn ⟨k, rfl⟩)
    · exact absurd h2.1 (by rw [← hl.net]; exact hn body)
  | cons v pre ih =>
    have := ih (fun u hu => h1 u (by simp [hu]))
    rw [List.cons_append, update]
    obtain ⟨r, hr1, hr2⟩ := exec_downloadFile w1 v
    refine crash_right ?_
    rw [hr1]
    rcases hr2 with ⟨body', rfl, hnet⟩ | ⟨rfl, hn⟩
    · have hv : validPSLDelimiters body' = false := by
        rw [Bool.eq_false_iff, Ne, validPSLDelimiters_iff]; intro hm
        exact h1 v (by simp) body' ⟨by rw [← hl.net]; exact hnet, hm⟩
      simp only [hv, Bool.not_false, if_true]
      exact this
    · exact this

theorem crash_possible (idna : Idna) (hard : Bytes) (f : FastTLD) (w : World) {url body : Bytes} {g : WFile}
    (hp : f.cacheFilePath = defaultPath w) (ho : Opens w g) (hs : w.seekWorks = true)
    (hf : FirstOffer w publicSuffixListSources url body) (k : Nat) :
    ∃ w', Crash (f.update idna hard) w w' ∧ CacheIs w w' (overwritten w g (body.take k)) := by
  rcases hopen : w.openForWriting (defaultPath w) with ⟨_ | h, w1⟩
  · exact absurd ho ((opens_none hopen).2 g)
  · obtain ⟨rfl, g', hg, hc, h1, h2, h3, h4⟩ := opens_some hopen
    cases opens_unique ho hg
    have hl : Like w g w1 := ⟨hc, h1, h2, h3, h4⟩
    refine ⟨_, ?_, (hl.put (body.take k)).cache⟩
    unfold FastTLD.update
    refine crash_right ?_
    have hdp : w.tmp ++ defaultPSLFileName = defaultPath w := rfl
    simp only [exec_ask, Op.answer, hdp, ne_eq, hp, not_true, if_false]
    refine crash_right ?_
    simp only [exec_ask, Op.answer, hopen]
    exact crash_left (crash_loop hl hs hf k)

end Fasttld
