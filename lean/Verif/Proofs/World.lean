import Verif.Proofs.System

/-!
# New and Update in a world
-/

set_option linter.unusedSimpArgs false

namespace Fasttld
open Spec

def Quiet (evs : List Event) : Prop := ∀ e ∈ evs, ¬ IsWrite e ∧ ¬ IsNetwork e

theorem Quiet.append {a b} (ha : Quiet a) (hb : Quiet b) : Quiet (a ++ b) := by
  intro e he
  rcases List.mem_append.1 he with h | h
  · exact ha e h
  · exact hb e h

theorem usable_unique {w p c t c' t'} (h : Usable w p c t) (h' : Usable w p c' t') : c = c' ∧ t = t' := by
  obtain ⟨s, q, f, h1, h2, h3, h4, rfl, rfl, h7⟩ := h
  obtain ⟨s', q', f', h1', h2', h3', h4', rfl, rfl, h7'⟩ := h'
  rw [stripped_iff] at h1 h1'
  subst h1; subst h1'
  rw [h2] at h2'
  cases h2'
  rw [h3] at h3'
  cases h3'
  exact ⟨rfl, rfl⟩

theorem exec_fileLastModified (w : World) (st : Option FileInfo) : (fileLastModified st).exec w =
    ((st.map (fun i => w.clock - i.modTime)).getD 0, w, if st.isSome then [.now w.clock] else []) := by
  cases st <;> simp [fileLastModified, exec_bind, Op.answer]

theorem exec_check_eq (w : World) (p : Bytes) :
    let q := (w.absOf (trimSpace p)).getD []
    let st := w.statOf q
    (checkCacheFile p).exec w =
      (((w.absOf (trimSpace p)).isSome && st.any (fun i => !i.isDir) &&
          (w.read q).any validPSLDelimiters, (st.map (fun i => w.clock - i.modTime)).getD 0), w,
        .abs (trimSpace p) (q, (w.absOf (trimSpace p)).isSome) :: .stat q st ::
          ((if st.isSome then [.now w.clock] else []) ++ [.readFile q (w.read q)])) := by
  simp only [checkCacheFile, exec_bind, exec_ask, Op.answer, exec_fileLastModified, exec_pure, event_abs, event_stat,
    event_readFile]
  cases ha : w.absOf (trimSpace p) <;> simp

/-- checkCacheFile in a world. -/
theorem exec_checkCacheFile (w : World) (p : Bytes) : ∃ v a evs,
    (checkCacheFile p).exec w = ((v, a), w, evs) ∧ Quiet evs ∧ (v = true ↔ ∃ c t, Usable w p c t) ∧
    ∀ c t, Usable w p c t → a = w.clock - t := by
  refine ⟨_, _, _, exec_check_eq w p, ?_, ?_, ?_⟩
  · intro e he
    simp only [List.mem_cons, List.mem_append, List.not_mem_nil, or_false] at he
    rcases he with rfl | rfl | h | rfl
    · simp [IsWrite, IsNetwork]
    · simp [IsWrite, IsNetwork]
    · split at h
      · simp at h; subst h; simp [IsWrite, IsNetwork]
      · simp at h
    · simp [IsWrite, IsNetwork]
  · constructor
    · intro h
      simp only [Bool.and_eq_true] at h
      obtain ⟨⟨h1, h2⟩, h3⟩ := h
      obtain ⟨q, hq⟩ := Option.isSome_iff_exists.1 h1
      simp only [hq, Option.getD_some] at h2 h3
      cases hn : w.nodes (w.loc q) with
      | none => simp [World.statOf, hn] at h2
      | some nd =>
        cases nd with
        | dir t => simp [World.statOf, hn] at h2
        | file f =>
          cases hr : f.readable with
          | false => simp [World.read, hn, hr] at h3
          | true =>
            simp [World.read, hn, hr] at h3
            exact ⟨f.content, f.modTime, _, q, f, stripped_iff.2 rfl, hq, hn, hr, rfl, rfl, (validPSLDelimiters_iff _).1 h3⟩
    · rintro ⟨c, t, s, q, f, h1, h2, h3, h4, rfl, rfl, h7⟩
      rw [stripped_iff] at h1; subst h1
      simp [h2, World.statOf, World.read, h3, h4, (validPSLDelimiters_iff _).2 h7]
  · rintro c t ⟨s, q, f, h1, h2, h3, h4, rfl, rfl, h7⟩
    rw [stripped_iff] at h1; subst h1
    simp [h2, World.statOf, h3]

theorem exec_trieConstruct (idna : Idna) (hard : Bytes) (inc : Bool) (p : Bytes) (w : World) :
    ∃ evs, Quiet evs ∧ (trieConstruct idna hard inc p).exec w =
      (if p = [] then (trieOfText idna inc hard, none)
       else match w.read p with
        | none => (.node false [], some .readFile)
        | some c => (trieOfText idna inc c, none), w, evs) := by
  by_cases hp : p = []
  · subst hp
    refine ⟨[], by simp [Quiet], ?_⟩
    simp [trieConstruct, exec_bind, getHardcodedPublicSuffixList, trieOfText]
  · refine ⟨[.readFile p (w.read p)], by simp [Quiet, IsWrite, IsNetwork], ?_⟩
    cases hr : w.read p with
    | none => simp [trieConstruct, hp, exec_bind, getPublicSuffixList, Op.answer, hr]
    | some c => simp [trieConstruct, hp, exec_bind, getPublicSuffixList, Op.answer, hr, trieOfText]

theorem exec_newHardcodedPSL (idna : Idna) (hard : Bytes) (n) (w : World) :
    (newHardcodedPSL idna hard n).exec w =
      ((⟨[], trieOfText idna n.includePrivateSuffix hard, n.includePrivateSuffix⟩, none), w, []) := by
  simp [newHardcodedPSL, exec_bind, trieConstruct, getHardcodedPublicSuffixList, trieOfText]

theorem exec_finishNew (idna : Idna) (hard : Bytes) (n) (x : FastTLD) (w : World) :
    ∃ evs, Quiet evs ∧ (finishNew idna hard n x).exec w =
      (if x.cacheFilePath = [] then ({ x with tldTrie := trieOfText idna n.includePrivateSuffix hard }, none)
       else match w.read x.cacheFilePath with
        | none => (⟨[], trieOfText idna n.includePrivateSuffix hard, n.includePrivateSuffix⟩, none)
        | some c => ({ x with tldTrie := trieOfText idna n.includePrivateSuffix c }, none), w, evs) := by
  obtain ⟨evs, h1, h2⟩ := exec_trieConstruct idna hard n.includePrivateSuffix x.cacheFilePath w
  refine ⟨evs, h1, ?_⟩
  simp only [finishNew, exec_bind, h2]
  by_cases hp : x.cacheFilePath = []
  · simp [hp]
  · simp only [hp, if_false]
    cases w.read x.cacheFilePath with
    | none => simp [exec_newHardcodedPSL]
    | some c => simp

/-- A path that leads to a usable file can be read, relative or absolute, if it has no white space around it. -/
theorem usable_read {w : World} (hw : Coherent w) {p c t} (h : Usable w p c t) (hp : Stripped p p) :
    w.read p = some c := by
  obtain ⟨s, q, f, h1, h2, h3, h4, h5, -, -⟩ := h
  rw [stripped_iff] at h1 hp
  rw [← hp] at h1; subst h1
  rw [hw _ _ h2] at h3
  simp [World.read, h3, h4, h5]

theorem exec_downloadFile (w : World) (url : Bytes) : ∃ r, (downloadFile url).exec w = (r, w, [.httpGet url (w.net url)]) ∧
    ((∃ body, r = some body ∧ w.net url = .status 200 body true) ∨ (r = none ∧ ∀ body, w.net url ≠ .status 200 body true)) := by
  cases hr : w.net url with
  | failed => exact ⟨none, by simp [downloadFile, exec_bind, Op.answer, hr], .inr ⟨rfl, by simp⟩⟩
  | status code body complete =>
    by_cases hc : code = 200
    · cases complete with
      | true => exact ⟨some body, by simp [downloadFile, exec_bind, Op.answer, hr, hc], .inl ⟨body, rfl, by rw [hc]⟩⟩
      | false => exact ⟨none, by simp [downloadFile, exec_bind, Op.answer, hr, hc], .inr ⟨rfl, by simp⟩⟩
    · exact ⟨none, by simp [downloadFile, exec_bind, Op.answer, hr, hc], .inr ⟨rfl, by simp [hc]⟩⟩

/-! ## Crashes -/

theorem crash_bind {α γ : Type} {p : Prog α} {f : α → Prog γ} {w w' : World} (h : Crash (p >>= f) w w') :
    Crash p w w' ∨ Crash (f (p.exec w).1) (p.exec w).2.1 w' := by
  change Crash (p.bind f) w w' at h
  induction p generalizing w with
  | ret a => exact .inr h
  | call o k ih =>
    cases h with
    | here => exact .inl (.here _ _)
    | step h =>
      rcases ih _ h with h | h
      · exact .inl (.step h)
      · exact .inr h
    | torn h => exact .inl (.torn h)

theorem crash_ret {α : Type} {a : α} {w w' : World} (h : Crash (Prog.ret a) w w') : w' = w := by
  cases h; rfl

theorem crash_pure {α : Type} {a : α} {w w' : World} (h : Crash (pure a : Prog α) w w') : w' = w := crash_ret h

theorem crash_ask {β : Type} {o : Op β} {w w' : World} (h : Crash o.ask w w') :
    w' = w ∨ w' = (o.answer w).2 ∨ o.interrupted w w' := by
  unfold Op.ask at h
  cases h with
  | here => exact .inl rfl
  | step h => exact .inr (.inl (crash_ret h))
  | torn h => exact .inr (.inr h)

theorem crash_exec {α : Type} (p : Prog α) (w : World) : Crash p w (p.exec w).2.1 := by
  induction p generalizing w with
  | ret a => exact .here _ _
  | call o k ih => exact .step (ih _ _)

/-! ## Writing -/

theorem put_file {w : World} {h g} (hg : w.nodes h = some (.file g)) (data : Bytes) :
    w.put h data = { w with
      nodes := fun i => if i = h then
          some (.file { g with content := writeAt g.content w.offset data,
                               modTime := if data = [] then g.modTime else w.clock })
        else w.nodes i
      offset := w.offset + data.length } := by
  unfold World.put; rw [hg]

theorem writeAt_zero (old data : Bytes) : writeAt old 0 data = data ++ old.drop data.length := by
  simp [writeAt]

/-- Only the file at `h` differs, and that by layers. -/
structure Touched (w : World) (h : Nat) (g : WFile) (w' : World) : Prop where
  file : ∃ g', w'.nodes h = some (.file g') ∧ Layered w g.content g'.content ∧ g'.readable = g.readable ∧ g'.writable = g.writable
  others : ∀ i, i ≠ h → w'.nodes i = w.nodes i
  loc : w'.loc = w.loc
  absOf : w'.absOf = w.absOf
  tmp : w'.tmp = w.tmp
  net : w'.net = w.net

theorem Touched.refl {w : World} {h g} (hg : w.nodes h = some (.file g)) : Touched w h g w :=
  ⟨⟨g, hg, .base, rfl, rfl⟩, fun _ _ => rfl, rfl, rfl, rfl, rfl⟩

theorem Touched.put {w w' : World} {h g} (ht : Touched w h g w') {url body : Bytes} (ho : Offers w url body) (k : Nat)
    (h0 : w'.offset = 0) : Touched w h g (w'.put h (body.take k)) := by
  obtain ⟨g', h1, h2, h3, h4⟩ := ht.file
  rw [put_file h1]
  refine ⟨⟨_, if_pos rfl, ?_, h3, h4⟩, ?_, ht.loc, ht.absOf, ht.tmp, ht.net⟩
  · rw [h0]; exact .layer k h2 ho
  · intro i hi; simp [hi, ht.others i hi]

theorem Touched.rewind {w w' : World} {h g} (ht : Touched w h g w') : Touched w h g w'.rewind :=
  ⟨ht.file, ht.others, ht.loc, ht.absOf, ht.tmp, ht.net⟩

/-- Wherever the loop over the sources is interrupted. -/
theorem crash_update_loop {w0 : World} {h g} {sources : List Bytes} {w w' : World} (ht : Touched w0 h g w)
    (hc : Crash (update h sources) w w') : Touched w0 h g w' := by
  induction sources generalizing w with
  | nil => obtain rfl := crash_pure hc; exact ht
  | cons url rest ih =>
    simp only [update] at hc
    obtain ⟨r, hr1, hr2⟩ := exec_downloadFile w url
    rcases crash_bind hc with hc | hc
    · have : w' = w := by
        unfold downloadFile at hc
        rcases crash_bind hc with hc | hc
        · rcases crash_ask hc with h | h | h
          · exact h
          · exact h
          · exact absurd h (by simp [Op.interrupted])
        · simp only [exec_ask, Op.answer] at hc
          split at hc
          · exact crash_pure hc
          · split at hc <;> exact crash_pure hc
      rw [this]; exact ht
    · rw [hr1] at hc
      rcases hr2 with ⟨body, rfl, hnet⟩ | ⟨rfl, -⟩
      · simp only at hc
        split at hc
        · exact ih ht hc
        · rename_i hv
          have ho : Offers w0 url body := ⟨by rw [← ht.net]; exact hnet, by
            rw [← validPSLDelimiters_iff]; simpa using hv⟩
          rcases crash_bind hc with hc | hc
          · rcases crash_ask hc with h | h | h
            · rw [h]; exact ht
            · rw [h]; simp only [Op.answer]; split
              · exact ht.rewind
              · exact ht
            · exact absurd h (by simp [Op.interrupted])
          · simp only [exec_ask, Op.answer] at hc
            cases hs : w.seekWorks with
            | false =>
              simp only [hs, Bool.false_eq_true, if_false, Bool.not_false, if_true] at hc
              exact ih ht hc
            | true =>
              simp only [hs, if_true, Bool.not_true, Bool.false_eq_true, if_false] at hc
              have hws : w.rewind.writeStops = w.writeStops := rfl
              rcases crash_bind hc with hc | hc
              · rcases crash_ask hc with h | h | h
                · rw [h]; exact ht.rewind
                · rw [h]; exact ht.rewind.put ho _ rfl
                · obtain ⟨n, rfl⟩ := h
                  exact ht.rewind.put ho _ rfl
              · have ht' := ht.rewind.put ho (w.rewind.written body) rfl
                simp only [exec_ask, Op.answer] at hc
                cases hn : (w.rewind.writeStops body).isNone with
                | false =>
                  simp only [hn, Bool.not_false, if_true] at hc
                  exact ih ht' hc
                | true =>
                  simp only [hn, Bool.not_true, Bool.false_eq_true, if_false] at hc
                  rw [crash_pure hc]; exact ht'
      · exact ih ht hc

/-- If the loop reports success, the last thing that happened is that an offered list was written completely. -/
theorem exec_update_loop_true {w0 : World} {h g} {sources : List Bytes} {w w' : World} {evs} (ht : Touched w0 h g w)
    (he : (update h sources).exec w = (true, w', evs)) :
    ∃ url ∈ sources, ∃ body g', Offers w0 url body ∧ w'.nodes h = some (.file g') ∧ body <+: g'.content := by
  induction sources generalizing w evs with
  | nil => simp [update] at he
  | cons url rest ih =>
    simp only [update, exec_bind] at he
    obtain ⟨r, hr1, hr2⟩ := exec_downloadFile w url
    rw [hr1] at he
    have lift : ∀ {w'' : World} {e}, Touched w0 h g w'' → (update h rest).exec w'' = (true, w', e) →
        ∃ url' ∈ url :: rest, ∃ body g', Offers w0 url' body ∧ w'.nodes h = some (.file g') ∧ body <+: g'.content := by
      intro w'' e ht' he'
      obtain ⟨u, hu, x⟩ := ih ht' he'
      exact ⟨u, by simp [hu], x⟩
    rcases hr2 with ⟨body, rfl, hnet⟩ | ⟨rfl, -⟩
    · simp only at he
      split at he
      · simp only [Prod.mk.injEq] at he
        exact lift ht (Prod.ext he.1 (Prod.ext he.2.1 rfl))
      · rename_i hv
        have ho : Offers w0 url body := ⟨by rw [← ht.net]; exact hnet, by
          rw [← validPSLDelimiters_iff]; simpa using hv⟩
        simp only [exec_bind, exec_ask, Op.answer] at he
        cases hs : w.seekWorks with
        | false =>
          simp only [hs, Bool.false_eq_true, if_false, Bool.not_false, if_true, Prod.mk.injEq] at he
          exact lift ht (Prod.ext he.1 (Prod.ext he.2.1 rfl))
        | true =>
          simp only [hs, if_true, Bool.not_true, Bool.false_eq_true, if_false, exec_bind, exec_ask, Op.answer] at he
          have ht' := ht.rewind.put ho (w.rewind.written body) rfl
          cases hw : w.rewind.writeStops body with
          | some k =>
            simp only [hw, Option.isNone_some, Bool.not_false, if_true, Prod.mk.injEq] at he
            exact lift ht' (Prod.ext he.1 (Prod.ext he.2.1 rfl))
          | none =>
            simp only [hw, Option.isNone_none, Bool.not_true, Bool.false_eq_true, if_false, exec_pure, Prod.mk.injEq] at he
            obtain ⟨g', h1, -, -, -⟩ := ht.rewind.file
            have hx := put_file h1 (List.take (w.rewind.written body) body)
            rw [he.2.1] at hx
            refine ⟨url, by simp, body, _, ho, by rw [hx]; exact if_pos rfl, ?_⟩
            simp only [World.written, hw, List.take_length, show w.rewind.offset = 0 from rfl, writeAt_zero]
            exact List.prefix_append _ _
    · simp only [Prod.mk.injEq] at he
      exact lift ht (Prod.ext he.1 (Prod.ext he.2.1 rfl))

/-- Without write errors, the first offered list is written over the old contents. -/
theorem exec_update_loop_first {w : World} {h : Nat} {sources : List Bytes} {url body : Bytes}
    (hs : w.seekWorks = true) (hw : ∀ b, w.writeStops b = none) (hf : FirstOffer w sources url body) :
    ∃ evs, (update h sources).exec w = (true, w.rewind.put h body, evs) := by
  obtain ⟨pre, post, rfl, h1, h2⟩ := hf
  induction pre with
  | nil =>
    simp only [List.nil_append, update, exec_bind]
    obtain ⟨r, hr1, hr2⟩ := exec_downloadFile w url
    rw [hr1]
    rcases hr2 with ⟨body', rfl, hnet⟩ | ⟨rfl, hn⟩
    · have : body' = body := by have := h2.1; rw [hnet] at this; simpa using this
      subst this
      simp [(validPSLDelimiters_iff body').2 h2.2, exec_bind, Op.answer, hs, World.written, show w.rewind.writeStops = w.writeStops from rfl, hw]
    · exact absurd h2.1 (hn body)
  | cons v pre ih =>
    obtain ⟨evs, he⟩ := ih (fun u hu => h1 u (by simp [hu]))
    simp only [List.cons_append, update, exec_bind]
    obtain ⟨r, hr1, hr2⟩ := exec_downloadFile w v
    rw [hr1]
    rcases hr2 with ⟨body', rfl, hnet⟩ | ⟨rfl, hn⟩
    · have : ¬ validPSLDelimiters body' = true := by
        rw [validPSLDelimiters_iff]; intro hm
        exact h1 v (by simp) body' ⟨hnet, hm⟩
      simp [this, he]
    · simp [he]

/-- Without an offer nothing is written. -/
theorem exec_update_loop_none {w : World} {h : Nat} {sources : List Bytes} (hf : ∀ v ∈ sources, ∀ b, ¬ Offers w v b) :
    ∃ evs, (update h sources).exec w = (false, w, evs) := by
  induction sources with
  | nil => exact ⟨[], rfl⟩
  | cons v rest ih =>
    obtain ⟨evs, he⟩ := ih (fun u hu => hf u (by simp [hu]))
    simp only [update, exec_bind]
    obtain ⟨r, hr1, hr2⟩ := exec_downloadFile w v
    rw [hr1]
    rcases hr2 with ⟨body', rfl, hnet⟩ | ⟨rfl, hn⟩
    · have : ¬ validPSLDelimiters body' = true := by
        rw [validPSLDelimiters_iff]; intro hm
        exact hf v (by simp) body' ⟨hnet, hm⟩
      simp [this, he]
    · simp [he]

/-! ## Update -/

theorem exec_update_eq (idna : Idna) (hard : Bytes) (f : FastTLD) (w : World) :
    (f.cacheFilePath ≠ defaultPath w ∧ (f.update idna hard).exec w = ((f, some .noOp), w, [.tempDir w.tmp])) ∨
    (f.cacheFilePath = defaultPath w ∧
      ((w.openForWriting (defaultPath w) = (none, w) ∧ (f.update idna hard).exec w = ((f, some .openFile), w,
          [.tempDir w.tmp, .openWrite (defaultPath w) none])) ∨
       ∃ h w1 ok w2 e2, w.openForWriting (defaultPath w) = (some h, w1) ∧ (update h publicSuffixListSources).exec w1 = (ok, w2, e2) ∧
        ((ok = false ∧ ∃ evs, Quiet evs ∧ (f.update idna hard).exec w = ((f, some .allMirrors), w2,
            .tempDir w.tmp :: .openWrite (defaultPath w) (some h) :: (e2 ++ evs)) ) ∨
         (ok = true ∧ ∃ evs, Quiet evs ∧ (f.update idna hard).exec w =
            (match w2.read (defaultPath w) with
              | none => (f, some .readFile)
              | some c => ({ f with tldTrie := trieOfText idna f.includePrivateSuffix c }, none), w2,
            .tempDir w.tmp :: .openWrite (defaultPath w) (some h) :: (e2 ++ evs)))))) := by
  have hne : defaultPath w ≠ [] := by simp [defaultPath]
  by_cases hd : f.cacheFilePath = defaultPath w
  · refine .inr ⟨hd, ?_⟩
    have hdp : w.tmp ++ defaultPSLFileName = defaultPath w := rfl
    rcases ho : w.openForWriting (defaultPath w) with ⟨_ | h, w1⟩
    · have : w1 = w := by
        unfold World.openForWriting at ho
        split at ho
        · split at ho <;> simp at ho; exact ho.symm
        · simp at ho; exact ho.symm
        · split at ho <;> simp at ho; exact ho.symm
      subst this
      refine .inl ⟨rfl, ?_⟩
      simp only [FastTLD.update, exec_bind, exec_ask, Op.answer, hdp, ne_eq, hd, not_true, if_false, ho, exec_pure, event_openWrite, event_tempDir]
      rfl
    · rcases hu : (update h publicSuffixListSources).exec w1 with ⟨ok, w2, e2⟩
      refine .inr ⟨h, w1, ok, w2, e2, rfl, hu, ?_⟩
      cases ok with
      | false =>
        refine .inl ⟨rfl, [], by simp [Quiet], ?_⟩
        simp only [FastTLD.update, exec_bind, exec_ask, Op.answer, hdp, ne_eq, hd, not_true, if_false, ho, hu, exec_pure, event_openWrite,
          event_tempDir, Bool.not_false, if_true]
        rfl
      | true =>
        obtain ⟨evs, hq, ht⟩ := exec_trieConstruct idna hard f.includePrivateSuffix (defaultPath w) w2
        refine .inr ⟨rfl, evs, hq, ?_⟩
        simp only [FastTLD.update, exec_bind, exec_ask, Op.answer, hdp, ne_eq, hd, not_true, if_false, ho, hu, exec_pure, event_openWrite,
          event_tempDir, Bool.not_true, Bool.false_eq_true, ht, hne]
        cases hr : w2.read (defaultPath w) with
        | none => simp
        | some c => simp [← hd]
  · refine .inl ⟨hd, ?_⟩
    have hd' : f.cacheFilePath ≠ w.tmp ++ defaultPSLFileName := hd
    simp [FastTLD.update, exec_bind, Op.answer, hd']

/-! ## New -/

/-- The extractor with the built-in list. -/
def builtIn (idna : Idna) (hard : Bytes) (n : SuffixListParams) : FastTLD :=
  ⟨[], trieOfText idna n.includePrivateSuffix hard, n.includePrivateSuffix⟩

/-- The extractor before rules are loaded. -/
def blank (n : SuffixListParams) (p : Bytes) : FastTLD := ⟨p, .node false [], n.includePrivateSuffix⟩

theorem exec_new_custom (idna : Idna) (hard : Bytes) (n) (w : World) {c t} (h : Usable w n.cacheFilePath c t) :
    ∃ evs, Quiet evs ∧ (new idna hard n).exec w =
      (((finishNew idna hard n (blank n n.cacheFilePath)).exec w).1, w, evs) := by
  obtain ⟨v, a, e1, h1, h2, h3, -⟩ := exec_checkCacheFile w n.cacheFilePath
  have hv : v = true := h3.2 ⟨c, t, h⟩
  subst hv
  obtain ⟨e2, h4, h5⟩ := exec_finishNew idna hard n (blank n n.cacheFilePath) w
  refine ⟨e1 ++ e2, h2.append h4, ?_⟩
  have : (new idna hard n).exec w = (((finishNew idna hard n (blank n n.cacheFilePath)).exec w).1,
      ((finishNew idna hard n (blank n n.cacheFilePath)).exec w).2.1, e1 ++ ((finishNew idna hard n (blank n n.cacheFilePath)).exec w).2.2) := by
    simp only [new, exec_bind, h1, if_true]; rfl
  rw [this, h5]

theorem exec_new_noDir (idna : Idna) (hard : Bytes) (n) (w : World) (h : ∀ c t, ¬ Usable w n.cacheFilePath c t)
    (hd : w.canOpenDir w.tmp = false) :
    ∃ evs, Quiet evs ∧ (new idna hard n).exec w = ((builtIn idna hard n, none), w, evs) := by
  obtain ⟨v, a, e1, h1, h2, h3, -⟩ := exec_checkCacheFile w n.cacheFilePath
  have hv : v = false := by
    cases v with
    | false => rfl
    | true => obtain ⟨c, t, hu⟩ := h3.1 rfl; exact absurd hu (h c t)
  subst hv
  refine ⟨e1 ++ [.tempDir w.tmp, .openDir w.tmp false], h2.append ?_, ?_⟩
  · intro e he; simp at he; rcases he with rfl | rfl <;> simp [IsWrite, IsNetwork]
  · simp only [new, exec_bind, h1, Bool.false_eq_true, if_false, exec_ask, Op.answer, hd, Bool.not_false, if_true,
      exec_newHardcodedPSL, event_tempDir, event_openDir]
    rfl

theorem exec_new_fresh (idna : Idna) (hard : Bytes) (n) (w : World) (h : ∀ c t, ¬ Usable w n.cacheFilePath c t)
    (hd : w.canOpenDir w.tmp = true) {c t} (hu : Usable w (defaultPath w) c t) (ht : ¬ w.clock - t > threeDays) :
    ∃ evs, Quiet evs ∧ (new idna hard n).exec w = (((finishNew idna hard n (blank n (defaultPath w))).exec w).1, w, evs) := by
  obtain ⟨v, a, e1, h1, h2, h3, -⟩ := exec_checkCacheFile w n.cacheFilePath
  have hv : v = false := by
    cases v with
    | false => rfl
    | true => obtain ⟨c, t, hu⟩ := h3.1 rfl; exact absurd hu (h c t)
  subst hv
  obtain ⟨v', a', e3, h1', h2', h3', h4'⟩ := exec_checkCacheFile w (defaultPath w)
  have hv' : v' = true := h3'.2 ⟨c, t, hu⟩
  have ha' := h4' c t hu
  subst hv'
  have hc : decide (a' > pslMaxAge) = false := by
    have : pslMaxAge = threeDays := by decide
    simp [this, ha']; omega
  obtain ⟨e4, h4, h5⟩ := exec_finishNew idna hard n (blank n (defaultPath w)) w
  refine ⟨e1 ++ (.tempDir w.tmp :: .openDir w.tmp true :: (e3 ++ e4)), h2.append ?_, ?_⟩
  · intro e he
    simp only [List.mem_cons] at he
    rcases he with rfl | rfl | he
    · simp [IsWrite, IsNetwork]
    · simp [IsWrite, IsNetwork]
    · exact h2'.append h4 e he
  · have : (new idna hard n).exec w = (((finishNew idna hard n (blank n (defaultPath w))).exec w).1,
        ((finishNew idna hard n (blank n (defaultPath w))).exec w).2.1,
        e1 ++ (.tempDir w.tmp :: .openDir w.tmp true :: (e3 ++ ((finishNew idna hard n (blank n (defaultPath w))).exec w).2.2))) := by
      simp only [new, exec_bind, h1, Bool.false_eq_true, if_false, exec_ask, Op.answer, hd, Bool.not_true,
        show w.tmp ++ defaultPSLFileName = defaultPath w from rfl, h1', Bool.false_or, hc, event_tempDir, event_openDir]
      rfl
    rw [this, h5]

theorem exec_new_stale (idna : Idna) (hard : Bytes) (n) (w : World) (h : ∀ c t, ¬ Usable w n.cacheFilePath c t)
    (hd : w.canOpenDir w.tmp = true) (hu : ∀ c t, Usable w (defaultPath w) c t → w.clock - t > threeDays) :
    ∃ evs, Quiet evs ∧ (new idna hard n).exec w =
      let u := ((blank n (defaultPath w)).update idna hard).exec w
      (match u.1.2 with
        | none => (u.1.1, none)
        | some _ => (builtIn idna hard n, none), u.2.1, evs ++ u.2.2) := by
  obtain ⟨v, a, e1, h1, h2, h3, -⟩ := exec_checkCacheFile w n.cacheFilePath
  have hv : v = false := by
    cases v with
    | false => rfl
    | true => obtain ⟨c, t, hu⟩ := h3.1 rfl; exact absurd hu (h c t)
  subst hv
  obtain ⟨v', a', e3, h1', h2', h3', h4'⟩ := exec_checkCacheFile w (defaultPath w)
  have hc : (!v' || decide (a' > pslMaxAge)) = true := by
    have : pslMaxAge = threeDays := by decide
    cases v' with
    | false => rfl
    | true =>
      obtain ⟨c, t, hx⟩ := h3'.1 rfl
      have := hu c t hx
      have := h4' c t hx
      simp; omega
  refine ⟨e1 ++ (.tempDir w.tmp :: .openDir w.tmp true :: e3), h2.append ?_, ?_⟩
  · intro e he
    simp only [List.mem_cons] at he
    rcases he with rfl | rfl | he
    · simp [IsWrite, IsNetwork]
    · simp [IsWrite, IsNetwork]
    · exact h2' e he
  · have hx : ((⟨defaultPath w, .node false [], n.includePrivateSuffix⟩ : FastTLD).update idna hard).exec w =
        ((blank n (defaultPath w)).update idna hard).exec w := rfl
    simp only [new, exec_bind, h1, Bool.false_eq_true, if_false, exec_ask, Op.answer, hd, Bool.not_true,
      show w.tmp ++ defaultPSLFileName = defaultPath w from rfl, h1', hc, if_true, event_tempDir, event_openDir, hx]
    rcases ((blank n (defaultPath w)).update idna hard).exec w with ⟨⟨x, err⟩, w', e⟩
    cases err with
    | none => simp
    | some err => simp [exec_newHardcodedPSL, builtIn]

/-- Opening for writing changes nothing but perhaps an empty place into an empty file. -/
theorem openForWriting_some {w w1 : World} {p h} (ho : w.openForWriting p = (some h, w1)) :
    h = w.loc p ∧ ∃ g, w1.nodes h = some (.file g) ∧ (∀ i, i ≠ h → w1.nodes i = w.nodes i) ∧
      w1.loc = w.loc ∧ w1.absOf = w.absOf ∧ w1.tmp = w.tmp ∧ w1.net = w.net ∧ w1.seekWorks = w.seekWorks ∧
      w1.writeStops = w.writeStops ∧ w1.clock = w.clock ∧ g.writable = true ∧
      ((w.nodes h = some (.file g)) ∨ (w.nodes h = none ∧ g = ⟨[], w.clock, true, true⟩)) := by
  unfold World.openForWriting at ho
  split at ho
  · rename_i hn
    split at ho
    · simp only [Prod.mk.injEq, Option.some.injEq] at ho
      obtain ⟨rfl, rfl⟩ := ho
      exact ⟨rfl, _, if_pos rfl, fun i hi => if_neg hi, rfl, rfl, rfl, rfl, rfl, rfl, rfl, rfl, .inr ⟨hn, rfl⟩⟩
    · simp at ho
  · simp at ho
  · rename_i g hn
    split at ho
    · rename_i hw
      simp only [Prod.mk.injEq, Option.some.injEq] at ho
      obtain ⟨rfl, rfl⟩ := ho
      exact ⟨rfl, g, hn, fun _ _ => rfl, rfl, rfl, rfl, rfl, rfl, rfl, rfl, hw, .inl hn⟩
    · simp at ho

/-! ## Update interrupted -/

theorem crash_trieConstruct {idna : Idna} {hard inc p} {w w' : World} (h : Crash (trieConstruct idna hard inc p) w w') :
    w' = w := by
  unfold trieConstruct at h
  by_cases hp : p = []
  · simp only [hp, ne_eq, not_true, if_false] at h
    rcases crash_bind h with h | h
    · exact crash_pure h
    · simp only [exec_pure, getHardcodedPublicSuffixList] at h
      exact crash_pure h
  · simp only [hp, ne_eq, not_false_eq_true, if_true] at h
    have step : ∀ {x : World}, Crash (getPublicSuffixList idna p) w x → x = w := by
      intro x hq
      unfold getPublicSuffixList at hq
      rcases crash_bind hq with hq | hq
      · rcases crash_ask hq with h | h | h
        · exact h
        · exact h
        · exact absurd h (by simp [Op.interrupted])
      · simp only [exec_ask, Op.answer] at hq
        split at hq <;> exact crash_pure hq
    rcases crash_bind h with h | h
    · exact step h
    · rw [step (crash_exec _ w)] at h
      split at h <;> exact crash_pure h

/-- What an interrupted Update can leave behind. -/
theorem crash_update {idna : Idna} {hard} {f : FastTLD} {w w' : World} (h : Crash (f.update idna hard) w w') :
    w' = w ∨ (f.cacheFilePath = defaultPath w ∧ ∃ h w1 g, w.openForWriting (defaultPath w) = (some h, w1) ∧
      w1.nodes h = some (.file g) ∧ Touched w1 h g w') := by
  unfold FastTLD.update at h
  rcases crash_bind h with h | h
  · rcases crash_ask h with h | h | h
    · exact .inl h
    · exact .inl h
    · exact absurd h (by simp [Op.interrupted])
  · simp only [exec_ask, Op.answer, show w.tmp ++ defaultPSLFileName = defaultPath w from rfl] at h
    by_cases hd : f.cacheFilePath = defaultPath w
    · simp only [hd, ne_eq, not_true, if_false] at h
      rcases crash_bind h with h | h
      · rcases crash_ask h with h | h | h
        · exact .inl h
        · rcases ho : w.openForWriting (defaultPath w) with ⟨_ | hh, w1⟩
          · simp only [Op.answer, ho] at h
            unfold World.openForWriting at ho
            left
            rw [h]
            split at ho
            · split at ho <;> simp at ho; exact ho.symm
            · simp at ho; exact ho.symm
            · split at ho <;> simp at ho; exact ho.symm
          · simp only [Op.answer, ho] at h
            obtain ⟨-, g, hg, -⟩ := openForWriting_some ho
            subst h; exact .inr ⟨hd, hh, w', g, rfl, hg, .refl hg⟩
        · exact absurd h (by simp [Op.interrupted])
      · simp only [exec_ask, Op.answer] at h
        rcases ho : w.openForWriting (defaultPath w) with ⟨_ | hh, w1⟩
        · simp only [ho] at h
          unfold World.openForWriting at ho
          left
          rw [crash_pure h]
          split at ho
          · split at ho <;> simp at ho; exact ho.symm
          · simp at ho; exact ho.symm
          · split at ho <;> simp at ho; exact ho.symm
        · simp only [ho] at h
          obtain ⟨-, g, hg, -⟩ := openForWriting_some ho
          refine .inr ⟨hd, hh, w1, g, rfl, hg, ?_⟩
          rcases crash_bind h with h | h
          · exact crash_update_loop (.refl hg) h
          · have ht := crash_update_loop (.refl hg) (crash_exec (update hh publicSuffixListSources) w1)
            rcases hu : (update hh publicSuffixListSources).exec w1 with ⟨ok, w2, e2⟩
            rw [hu] at h ht
            cases ok with
            | false =>
              simp only [Bool.not_false, if_true] at h
              rw [crash_pure h]; exact ht
            | true =>
              simp only [Bool.not_true, Bool.false_eq_true, if_false] at h
              rcases crash_bind h with h | h
              · rw [crash_trieConstruct h]; exact ht
              · have he := crash_trieConstruct (crash_exec (trieConstruct idna hard f.includePrivateSuffix (defaultPath w)) w2)
                rw [he] at h
                split at h <;> (rw [crash_pure h]; exact ht)
    · simp only [ne_eq, hd, not_false_eq_true, if_true] at h
      exact .inl (crash_pure h)

end Fasttld
