import Verif.Proofs.Torn
import Verif.Props.Psl
import Verif.Props.Total

/-!
# C36-C44: New and Update
-/

set_option linter.unusedSimpArgs false

namespace Fasttld.Props
open Fasttld Fasttld.Spec

/-! ## A small world -/

def listA : Bytes := b! "// ===BEGIN ICANN DOMAINS===\ncom\nnet\n// ===END ICANN DOMAINS===\n// ===BEGIN PRIVATE DOMAINS===\na.com\nlonger-longer-longer.com\nb.com\nc.com\n// ===END PRIVATE DOMAINS===\n"
def listB : Bytes := b! "// ===BEGIN ICANN DOMAINS===\ncom\norg\n// ===END ICANN DOMAINS===\n// ===BEGIN PRIVATE DOMAINS===\nb.org\n// ===END PRIVATE DOMAINS===\n"
def builtin : Bytes := b! "com\n"

/-- Some hour. -/
def hour : Int := 3600000000000

/-- `/x` holds list A, ` y` (with a space before the name) holds list A, the default cache file is `cached`, the first
source fails, the second has list B. -/
def exWorld (cached : Option Node) : World where
  tmp := b! "/tmp/"
  absOf := some
  loc := fun p => if p = b! "/x" then 1 else if p = b! "/tmp/public_suffix_list.dat" then 2 else if p = b! " /y" then 3 else 0
  nodes := fun i => if i = 1 then some (.file ⟨listA, 0, true, true⟩) else if i = 2 then cached
    else if i = 3 then some (.file ⟨listA, 0, true, true⟩) else none
  canCreate := fun i => i = 2
  canOpenDir := fun p => p = b! "/tmp/"
  clock := 100 * hour
  net := fun u => if u = b! "https://raw.githubusercontent.com/publicsuffix/list/master/public_suffix_list.dat"
    then .status 200 listB true else .failed
  seekWorks := true
  writeStops := fun _ => none
  offset := 0

/-- The suffix and error for a URL. -/
def suffixOf (f : FastTLD) (url : Bytes) : Option (Bytes × Option Err) :=
  match extract idId f.tldTrie ⟨url, false, false⟩ with
  | .ok (r, e) => some (r.suffix, e)
  | .error _ => none

/-! ## C36: New always works -/

/-- C36: whatever the operating system answers, New returns no error, the wanted setting, and rules from a file it read
or from the built-in list. -/
theorem C36_new (idna : Idna) (hard : Bytes) (n : SuffixListParams) {evs f err}
    (h : Run (new idna hard n) evs (f, err)) :
    err = none ∧ f.includePrivateSuffix = n.includePrivateSuffix ∧
    ((f.cacheFilePath = [] ∧ Serves idna f hard) ∨
     ∃ c, Event.readFile f.cacheFilePath (some c) ∈ evs ∧ Serves idna f c ∧
      (f.cacheFilePath = n.cacheFilePath ∨ ∃ tmp, Event.tempDir tmp ∈ evs ∧ f.cacheFilePath = tmp ++ b! "public_suffix_list.dat")) := by
  replace h := run_new.1 h
  obtain ⟨e1, v, a, -, h⟩ := h
  rcases h with ⟨rfl, e2, rfl, h⟩ | ⟨rfl, tmp, h⟩
  · rcases run_finishNew.1 h with ⟨hp, rfl, hr⟩ | ⟨hp, ⟨rfl, hr⟩ | ⟨c, rfl, hr⟩⟩
    · cases hr; exact ⟨rfl, rfl, .inl ⟨hp, rfl⟩⟩
    · cases hr; exact ⟨rfl, rfl, .inl ⟨rfl, rfl⟩⟩
    · cases hr; exact ⟨rfl, rfl, .inr ⟨c, by simp, rfl, .inl rfl⟩⟩
  · rcases h with ⟨rfl, hr⟩ | ⟨e3, v', a', -, h⟩
    · cases hr; exact ⟨rfl, rfl, .inl ⟨rfl, rfl⟩⟩
    · rcases h with ⟨hc, e4, x, err', hu, rfl, h⟩ | ⟨rfl, hc, e4, rfl, h⟩
      · rcases h with ⟨rfl, hr⟩ | ⟨-, hr⟩
        · cases hr
          obtain ⟨tmp', h⟩ := run_update.1 hu
          rcases h with ⟨-, -, hr⟩ | ⟨hp, ⟨-, hr⟩ | ⟨hd, evs', ok, -, ⟨-, -, hr⟩ | ⟨-, c, rfl, hr⟩⟩⟩
          · simp at hr
          · simp at hr
          · simp at hr
          · cases c with
            | none => simp at hr
            | some c =>
              simp only [Prod.mk.injEq, and_true] at hr
              subst hr
              exact ⟨rfl, rfl, .inr ⟨c, by simp, rfl, .inr ⟨tmp, by simp, rfl⟩⟩⟩
        · cases hr; exact ⟨rfl, rfl, .inl ⟨rfl, rfl⟩⟩
      · rcases run_finishNew.1 h with ⟨hp, -, hr⟩ | ⟨hp, ⟨rfl, hr⟩ | ⟨c, rfl, hr⟩⟩
        · simp [defaultPSLFileName] at hp
        · cases hr; exact ⟨rfl, rfl, .inl ⟨rfl, rfl⟩⟩
        · cases hr
          exact ⟨rfl, rfl, .inr ⟨c, by simp, rfl, .inr ⟨tmp, by simp, rfl⟩⟩⟩

/-- C36: and it ends, in every environment. -/
theorem C36_new_ends (idna : Idna) (hard : Bytes) (n : SuffixListParams) (env : Environment) :
    ∃ evs f, Run (new idna hard n) evs (f, none) ∧ Answers env [] evs := by
  obtain ⟨evs, ⟨f, err⟩, h1, h2⟩ := run_exists (new idna hard n) env []
  obtain rfl := (C36_new idna hard n h1).1
  exact ⟨evs, f, h1, h2⟩

/-- C36: the extractor works: every Extract returns. -/
theorem C36_extractor_works (idna : Idna) (hard : Bytes) (n : SuffixListParams) {evs f err}
    (_ : Run (new idna hard n) evs (f, err)) (e : URLParams) : ∃ r err, extract idna f.tldTrie e = .ok (r, err) := by
  exact C01_extract_returns idna f.tldTrie e

/-- The three kinds of result occur: custom file, default file, built-in list. -/
example :
    ((new idId builtin ⟨b! "/x", true⟩).exec (exWorld none)).1.1.cacheFilePath = b! "/x" ∧
    suffixOf ((new idId builtin ⟨b! "/x", true⟩).exec (exWorld none)).1.1 (b! "q.a.com") = some (b! "a.com", none) ∧
    ((new idId builtin ⟨[], false⟩).exec (exWorld none)).1.1.cacheFilePath = b! "/tmp/public_suffix_list.dat" ∧
    suffixOf ((new idId builtin ⟨[], false⟩).exec (exWorld none)).1.1 (b! "q.org") = some (b! "org", none) ∧
    ((new idId builtin ⟨[], false⟩).exec (exWorld (some (.dir 0)))).1.1.cacheFilePath = [] ∧
    suffixOf ((new idId builtin ⟨[], false⟩).exec (exWorld (some (.dir 0)))).1.1 (b! "q.com") = some (b! "com", none) := by
  decide +kernel

/-! ## C37: a valid custom list is used as is -/

/-- C37, for paths without white space around them: a readable regular file with the section markers is used, nothing
is downloaded, nothing is written.
Missing from the full statement: paths with white space around them, see `C37_counterexample`. -/
theorem C37_custom_partial (idna : Idna) (hard : Bytes) (n : SuffixListParams) (w : World) {c : Bytes} {q : Bytes} {g : WFile}
    (hw : Coherent w) (hs : Stripped n.cacheFilePath n.cacheFilePath) (hne : n.cacheFilePath ≠ [])
    (ha : w.absOf n.cacheFilePath = some q) (hg : w.nodes (w.loc n.cacheFilePath) = some (.file g))
    (hr : g.readable = true) (hc : g.content = c) (hm : HasMarkers c) :
    ∃ f evs, (new idna hard n).exec w = ((f, none), w, evs) ∧ f.cacheFilePath = n.cacheFilePath ∧ Serves idna f c ∧
      f.includePrivateSuffix = n.includePrivateSuffix ∧ ∀ e ∈ evs, ¬ IsWrite e ∧ ¬ IsNetwork e := by
  have hu : Usable w n.cacheFilePath c g.modTime :=
    ⟨_, q, g, hs, ha, by rw [hw _ _ ha]; exact hg, hr, hc, rfl, hm⟩
  obtain ⟨evs, h1, h2⟩ := exec_new_custom idna hard n w hu
  obtain ⟨e, -, h4⟩ := exec_finishNew idna hard n (blank n n.cacheFilePath) w
  rw [h4] at h2
  simp only [blank, hne, if_false, usable_read hw hu hs] at h2
  exact ⟨_, evs, h2, rfl, rfl, rfl, h1⟩

example : ∃ f evs, (new idId builtin ⟨b! "/x", false⟩).exec (exWorld none) = ((f, none), exWorld none, evs) ∧
    f.cacheFilePath = b! "/x" ∧ Serves idId f listA ∧ f.includePrivateSuffix = false ∧ ∀ e ∈ evs, ¬ IsWrite e ∧ ¬ IsNetwork e :=
  C37_custom_partial idId builtin ⟨b! "/x", false⟩ (exWorld none) (q := b! "/x") (g := ⟨listA, 0, true, true⟩)
    (fun p q h => by simp [exWorld] at h; rw [h]) (stripped_iff.2 (by decide +kernel)) (by decide) rfl rfl rfl rfl (by decide +kernel)

/-- C37 is false for paths with white space around them: `" /y"` names a readable regular file with the section markers,
but New downloads another list; and `" /x"` makes New check `/x`, then read `" /x"`, and fall back to the built-in list. -/
theorem C37_counterexample :
    (exWorld none).read (b! " /y") = some listA ∧ HasMarkers listA ∧
    ((new idId builtin ⟨b! " /y", false⟩).exec (exWorld none)).1.1.cacheFilePath = b! "/tmp/public_suffix_list.dat" ∧
    ((new idId builtin ⟨b! " /x", false⟩).exec (exWorld none)).1.1.cacheFilePath = [] := by
  decide +kernel

/-! ## C38, C39: Update without effect -/

/-- C38: Update of an extractor whose list is not the default cache file is an error, changes nothing, and asks for
nothing but the name of the temporary folder. -/
theorem C38_refuses (idna : Idna) (hard : Bytes) (f : FastTLD) {evs f' err} (h : Run (f.update idna hard) evs (f', err))
    {tmp} (ht : Event.tempDir tmp ∈ evs) (hne : f.cacheFilePath ≠ tmp ++ b! "public_suffix_list.dat") :
    f' = f ∧ err = some .noOp ∧ evs = [.tempDir tmp] := by
  obtain ⟨tmp', h⟩ := run_update.1 h
  have key : ∀ {x evs'}, evs = Event.tempDir tmp' :: evs' → (∀ t, Event.tempDir t ∉ evs') → f.cacheFilePath = tmp' ++ x →
      x = b! "public_suffix_list.dat" → False := by
    intro x evs' he hno hp hx
    rw [he] at ht
    rcases List.mem_cons.1 ht with h | h
    · cases h; subst hx; exact hne hp
    · exact hno _ h
  have hloop : ∀ {hd srcs e ok}, Run (update hd srcs) e ok → ∀ t, Event.tempDir t ∉ e := by
    intro hd srcs e ok hr
    have := run_update_loop.1 hr
    clear hr
    induction this with
    | exhausted => simp
    | stop h => cases h; simp
    | next h h' ih => intro t hm; rcases List.mem_append.1 hm with hm | hm
                      · cases h <;> simp at hm
                      · exact ih t hm
  rcases h with ⟨hp, rfl, hr⟩ | ⟨hp, ⟨he, hr⟩ | ⟨hd, evs', ok, hl, ⟨-, he, hr⟩ | ⟨-, c, he, hr⟩⟩⟩
  · simp at ht; subst ht; cases hr; exact ⟨rfl, rfl, rfl⟩
  · exact (key he (by simp) hp rfl).elim
  · exact (key he (by simp; exact hloop hl) hp rfl).elim
  · exact (key he (by simp; exact hloop hl) hp rfl).elim

/-- C38 in a world: no file changes. -/
theorem C38_refuses_world (idna : Idna) (hard : Bytes) (f : FastTLD) (w : World) (hne : f.cacheFilePath ≠ defaultPath w) :
    (f.update idna hard).exec w = ((f, some .noOp), w, [.tempDir w.tmp]) := by
  rcases exec_update_eq idna hard f w with ⟨-, h⟩ | ⟨h, -⟩
  · exact h
  · exact absurd h hne

example (t : Trie) : ((⟨b! "/x", t, true⟩ : FastTLD).update idId builtin).exec (exWorld none) =
    ((⟨b! "/x", t, true⟩, some .noOp), exWorld none, [.tempDir (b! "/tmp/")]) :=
  C38_refuses_world _ _ _ _ (show b! "/x" ≠ defaultPath (exWorld none) by decide)

/-- C39: an Update that returns an error leaves the extractor as it was, so every later Extract gives the same. -/
theorem C39_failed_update (idna : Idna) (hard : Bytes) (f : FastTLD) {evs f' err} (h : Run (f.update idna hard) evs (f', err))
    (he : err ≠ none) : f' = f ∧ ∀ e, extract idna f'.tldTrie e = extract idna f.tldTrie e := by
  have : f' = f := by
    obtain ⟨tmp', h⟩ := run_update.1 h
    rcases h with ⟨-, -, hr⟩ | ⟨-, ⟨-, hr⟩ | ⟨hd, evs', ok, -, ⟨-, -, hr⟩ | ⟨-, c, -, hr⟩⟩⟩
    · cases hr; rfl
    · cases hr; rfl
    · cases hr; rfl
    · cases c with
      | none => cases hr; rfl
      | some c => cases hr; exact absurd rfl he
  exact ⟨this, fun e => by rw [this]⟩

/-- Every kind of failure occurs. -/
example :
    ((⟨b! "/x", .node false [], true⟩ : FastTLD).update idId builtin).exec (exWorld none) |>.1.2 = some .noOp := by decide +kernel
example :
    (((⟨b! "/tmp/public_suffix_list.dat", .node false [], true⟩ : FastTLD).update idId builtin).exec (exWorld (some (.dir 0)))).1.2
      = some .openFile := by decide +kernel
example :
    (((⟨b! "/tmp/public_suffix_list.dat", .node false [], true⟩ : FastTLD).update idId builtin).exec
      { exWorld none with net := fun _ => .failed }).1.2 = some .allMirrors := by decide +kernel
example :
    (((⟨b! "/tmp/public_suffix_list.dat", .node false [], true⟩ : FastTLD).update idId builtin).exec
      (exWorld (some (.file ⟨[], 0, false, true⟩)))).1.2 = some .readFile := by decide +kernel

/-! ## C41: only validated downloads are written, in order -/

/-- C41: the calls `update` can make are exactly the attempts described in the specification. -/
theorem C41_attempts (file : Nat) (sources : List Bytes) (evs : List Event) (ok : Bool) :
    Run (update file sources) evs ok ↔ Attempts file sources evs ok := run_update_loop

/-- C41: only complete downloads with all section markers are written; the sources are asked in order; without success
all of them have been asked; a successful write is the last call, and there is one iff `update` reports success. -/
theorem C41_update {file : Nat} {sources : List Bytes} {evs : List Event} {ok : Bool} (h : Run (update file sources) evs ok) :
    (∀ hd body b, Event.write hd body b ∈ evs → hd = file ∧ (∀ m ∈ markers, m <:+: body) ∧
      ∃ url ∈ sources, Event.httpGet url (.status 200 body true) ∈ evs) ∧
    evs.filterMap urlOf <+: sources ∧ (ok = false → evs.filterMap urlOf = sources) ∧
    (ok = true ↔ ∃ body, Event.write file body true ∈ evs) ∧
    (∀ init rest hd body, evs = init ++ .write hd body true :: rest → rest = []) := by
  have h := run_update_loop.1 h
  obtain ⟨s1, s2, s3⟩ := attempts_stop h
  refine ⟨fun hd body b hm => attempts_write h hm, (attempts_urls h).1, (attempts_urls h).2, ?_, s3⟩
  constructor
  · intro hok
    obtain ⟨init, body, rfl⟩ := s1 hok
    exact ⟨body, by simp⟩
  · rintro ⟨body, hm⟩
    cases ok with
    | true => rfl
    | false => exact absurd hm (s2 rfl file body)

/-- The first source has no list, the second has one. -/
example : ((update 2 publicSuffixListSources).exec (exWorld none)).1 = true ∧
    ((update 2 publicSuffixListSources).exec (exWorld none)).2.2 =
      [.httpGet (b! "https://publicsuffix.org/list/public_suffix_list.dat") .failed,
       .httpGet (b! "https://raw.githubusercontent.com/publicsuffix/list/master/public_suffix_list.dat") (.status 200 listB true),
       .seek 2 true, .write 2 listB true] := by decide +kernel

/-! ## C40: a successful Update installs the downloaded list -/

/-- C40, in general: after a successful Update the cache file begins with a complete downloaded list with all section
markers, and the rules are those of the cache file. -/
theorem C40_installs_prefix (idna : Idna) (hard : Bytes) (f : FastTLD) (w : World) {f' w' evs}
    (h : (f.update idna hard).exec w = ((f', none), w', evs)) :
    ∃ url ∈ publicSuffixListSources, ∃ body c, Offers w url body ∧ w'.read (defaultPath w) = some c ∧ body <+: c ∧
      Serves idna f' c ∧ f'.cacheFilePath = defaultPath w ∧ f'.includePrivateSuffix = f.includePrivateSuffix := by
  rcases exec_update_eq idna hard f w with ⟨-, he⟩ | ⟨hp, ⟨-, he⟩ | ⟨hd, w1, ok, w2, e2, ho, hu, ⟨-, evs', -, he⟩ | ⟨rfl, evs', -, he⟩⟩⟩
  · rw [he] at h; simp at h
  · rw [he] at h; simp at h
  · rw [he] at h; simp at h
  · rw [he] at h
    cases hr : w2.read (defaultPath w) with
    | none => rw [hr] at h; simp at h
    | some c =>
      rw [hr] at h
      simp only [Prod.mk.injEq, and_true, true_and] at h
      obtain ⟨rfl, rfl, -⟩ := h
      obtain ⟨rfl, g, hg, hoth, hloc, habs, htmp, hnet, -⟩ := openForWriting_some ho
      obtain ⟨url, hurl, body, g', hof, hg', hpre⟩ := exec_update_loop_true (.refl hg) hu
      have ht := crash_update_loop (.refl hg) (crash_exec (update (w.loc (defaultPath w)) publicSuffixListSources) w1)
      rw [hu] at ht
      refine ⟨url, hurl, body, c, ⟨by rw [← hnet]; exact hof.1, hof.2⟩, hr, ?_, rfl, hp, rfl⟩
      have hl : w2.loc (defaultPath w) = w.loc (defaultPath w) := by rw [ht.loc, hloc]
      simp only [World.read, hl, hg'] at hr
      split at hr
      · simp at hr; rw [← hr]; exact hpre
      · simp at hr

/-- C40, for a list that is not shorter than the old cache file: the cache file and the rules are those of the first
source with a complete list.
Missing from the full statement: shorter lists, see `C40_counterexample`; and errors while writing, where another source
may be used. -/
theorem C40_installs_partial (idna : Idna) (hard : Bytes) (f : FastTLD) (w : World) {url body : Bytes}
    (hp : f.cacheFilePath = defaultPath w) (hs : w.seekWorks = true) (hw : ∀ b, w.writeStops b = none)
    (hf : FirstOffer w publicSuffixListSources url body) {f' err w' evs}
    (h : (f.update idna hard).exec w = ((f', err), w', evs)) (herr : err = none)
    (hold : ∀ g, w.nodes (w.loc (defaultPath w)) = some (.file g) → g.content.length ≤ body.length) :
    w'.read (defaultPath w) = some body ∧ Serves idna f' body := by
  subst herr
  rcases exec_update_eq idna hard f w with ⟨hp', -⟩ | ⟨-, ⟨-, he⟩ | ⟨hd, w1, ok, w2, e2, ho, hu, ⟨-, evs', -, he⟩ | ⟨rfl, evs', -, he⟩⟩⟩
  · exact absurd hp hp'
  · rw [he] at h; simp at h
  · rw [he] at h; simp at h
  · rw [he] at h
    obtain ⟨rfl, g, hg, hoth, hloc, habs, htmp, hnet, hsk, hws, hcl, hwr, hg0⟩ := openForWriting_some ho
    have hf1 : FirstOffer w1 publicSuffixListSources url body := by
      obtain ⟨pre, post, e1, h1, h2⟩ := hf
      exact ⟨pre, post, e1, fun v hv b hb => h1 v hv b ⟨by rw [← hnet]; exact hb.1, hb.2⟩, ⟨by rw [hnet]; exact h2.1, h2.2⟩⟩
    obtain ⟨e3, hx⟩ := exec_update_loop_first (h := w.loc (defaultPath w)) (by rw [hsk]; exact hs) (by rw [hws]; exact hw) hf1
    rw [hx] at hu
    simp only [Prod.mk.injEq, true_and] at hu
    obtain ⟨hw2, -⟩ := hu
    have hlen : g.content.length ≤ body.length := by
      rcases hg0 with hg0 | ⟨-, rfl⟩
      · exact hold g hg0
      · simp
    have hput := put_file (w := w1.rewind) hg body
    rw [hw2] at hput
    have hread : w2.read (defaultPath w) = if g.readable then some body else none := by
      have e1 : w2.loc = w.loc := by rw [hput]; exact hloc
      have e2 : w2.nodes (w.loc (defaultPath w)) = some (.file { g with content := writeAt g.content w1.rewind.offset body, modTime := if body = [] then g.modTime else w1.rewind.clock }) := by
        rw [hput]; exact if_pos rfl
      have e3 : writeAt g.content w1.rewind.offset body = body := by
        have : w1.rewind.offset = 0 := rfl
        rw [this, writeAt_zero, List.drop_eq_nil_of_le hlen, List.append_nil]
      simp only [World.read, e1, e2, e3]
    cases hr : g.readable with
    | false =>
      simp only [hread, hr, Bool.false_eq_true, if_false] at h
      simp at h
    | true =>
      simp only [hr, if_true] at hread
      rw [hread] at h
      simp only [Prod.mk.injEq, and_true, true_and] at h
      obtain ⟨rfl, rfl, -⟩ := h
      exact ⟨hread, rfl⟩

example : (((⟨b! "/tmp/public_suffix_list.dat", .node false [], false⟩ : FastTLD).update idId builtin).exec
      (exWorld (some (.file ⟨b! "old", 0, true, true⟩)))).1.2 = none ∧
    ((((⟨b! "/tmp/public_suffix_list.dat", .node false [], false⟩ : FastTLD).update idId builtin).exec
      (exWorld (some (.file ⟨b! "old", 0, true, true⟩)))).2.1.read (b! "/tmp/public_suffix_list.dat")) = some listB := by
  decide +kernel

/-- A successful Update, before which the default cache file held list A. -/
def updatedFromA : (FastTLD × Option SysErr) × World × List Event :=
  ((⟨b! "/tmp/public_suffix_list.dat", .node false [], true⟩ : FastTLD).update idId builtin).exec
    (exWorld (some (.file ⟨listA, 0, true, true⟩)))

/-- C40 is false if the new list is shorter: the end of the old file stays, and with it some of its rules. -/
theorem C40_counterexample :
    updatedFromA.1.2 = none ∧ FirstOffer (exWorld (some (.file ⟨listA, 0, true, true⟩))) publicSuffixListSources
      (b! "https://raw.githubusercontent.com/publicsuffix/list/master/public_suffix_list.dat") listB ∧
    updatedFromA.2.1.read (b! "/tmp/public_suffix_list.dat") = some (listB ++ b! "m\nc.com\n// ===END PRIVATE DOMAINS===\n") ∧
    suffixOf updatedFromA.1.1 (b! "q.c.com") = some (b! "c.com", none) ∧
    suffixOf ⟨[], trieOfText idId true listB, true⟩ (b! "q.c.com") = some (b! "com", none) := by
  refine ⟨by decide +kernel, ⟨[b! "https://publicsuffix.org/list/public_suffix_list.dat"], [], by decide +kernel, ?_, rfl,
    by decide +kernel⟩, by decide +kernel, by decide +kernel, by decide +kernel⟩
  intro v hv b hb
  simp only [List.mem_singleton] at hv
  subst hv
  exact absurd hb.1 (by simp [exWorld])

/-! ## C42: three days -/

/-- C42, one direction: New without a usable custom list uses the network only if the default cache file is unusable or
older than 72 hours. -/
theorem C42_network_only_if_stale (idna : Idna) (hard : Bytes) (n : SuffixListParams) (w : World)
    (hcustom : ∀ c t, ¬ Usable w n.cacheFilePath c t) (h : ∃ e ∈ ((new idna hard n).exec w).2.2, IsNetwork e) :
    ¬ ∃ c t, Usable w (defaultPath w) c t ∧ w.clock - t ≤ threeDays := by
  rintro ⟨c, t, hu, ht⟩
  obtain ⟨e, he, hn⟩ := h
  cases hd : w.canOpenDir w.tmp with
  | false =>
    obtain ⟨evs, h1, h2⟩ := exec_new_noDir idna hard n w hcustom hd
    rw [h2] at he
    exact (h1 e he).2 hn
  | true =>
    obtain ⟨evs, h1, h2⟩ := exec_new_fresh idna hard n w hcustom hd hu (by omega)
    rw [h2] at he
    exact (h1 e he).2 hn

/-- C42 if the temporary folder and the cache file can be opened: New without a usable custom list uses the network iff
the default cache file is unusable or older than 72 hours.
Missing from the full statement: the other case, see `C42_counterexample`. -/
theorem C42_three_days_partial (idna : Idna) (hard : Bytes) (n : SuffixListParams) (w : World)
    (hcustom : ∀ c t, ¬ Usable w n.cacheFilePath c t) (hd : w.canOpenDir w.tmp = true)
    (ho : ∃ h, (w.openForWriting (defaultPath w)).1 = some h) :
    (∃ e ∈ ((new idna hard n).exec w).2.2, IsNetwork e) ↔
      ¬ ∃ c t, Usable w (defaultPath w) c t ∧ w.clock - t ≤ threeDays := by
  refine ⟨C42_network_only_if_stale idna hard n w hcustom, fun hstale => ?_⟩
  obtain ⟨evs, -, h2⟩ := exec_new_stale idna hard n w hcustom hd (fun c t hu => Int.not_le.1 fun h => hstale ⟨c, t, hu, h⟩)
  rw [h2]
  suffices ∃ e ∈ (((blank n (defaultPath w)).update idna hard).exec w).2.2, IsNetwork e by
    obtain ⟨e, he, hn⟩ := this
    exact ⟨e, List.mem_append_right _ he, hn⟩
  obtain ⟨hd', ho⟩ := ho
  have loop : ∀ {h w1 ok w2 e2}, (update h publicSuffixListSources).exec w1 = (ok, w2, e2) → ∃ e ∈ e2, IsNetwork e := by
    intro h w1 ok w2 e2 hu
    have hr := exec_run (update h publicSuffixListSources) w1
    rw [hu] at hr
    have hr := run_update_loop.1 hr
    have first : ∀ {evs ok url}, Attempt h url evs ok → ∃ e ∈ evs, IsNetwork e := by
      intro evs ok url ha
      cases ha <;> exact ⟨_, List.mem_cons_self, trivial⟩
    cases hr with
    | stop ha => exact first ha
    | next ha _ =>
      obtain ⟨e, he, hn⟩ := first ha
      exact ⟨e, List.mem_append_left _ he, hn⟩
  rcases exec_update_eq idna hard (blank n (defaultPath w)) w with ⟨hp, -⟩ | ⟨-, ⟨h, -⟩ | ⟨h, w1, ok, w2, e2, -, hu, ⟨-, evs', -, he⟩ | ⟨-, evs', -, he⟩⟩⟩
  · exact absurd rfl hp
  · rw [h] at ho; simp at ho
  · obtain ⟨e, hm, hn⟩ := loop hu
    rw [he]; exact ⟨e, by simp [hm], hn⟩
  · obtain ⟨e, hm, hn⟩ := loop hu
    rw [he]; exact ⟨e, by simp [hm], hn⟩

/-- Exactly 72 hours old: no download.  A nanosecond more: download. -/
example :
    ((new idId builtin ⟨[], false⟩).exec (exWorld (some (.file ⟨listA, 28 * hour, true, true⟩)))).2.2.filterMap urlOf = [] ∧
    ((new idId builtin ⟨[], false⟩).exec (exWorld (some (.file ⟨listA, 28 * hour - 1, true, true⟩)))).2.2.filterMap urlOf
      = publicSuffixListSources := by decide +kernel

/-- C42 is false if the temporary folder cannot be opened or the default cache file cannot be written: there is no usable
cache file, but the network is not used. -/
theorem C42_counterexample :
    ((new idId builtin ⟨[], false⟩).exec { exWorld none with canOpenDir := fun _ => false }).2.2.filterMap urlOf = [] ∧
    ((new idId builtin ⟨[], false⟩).exec { exWorld none with canCreate := fun _ => false }).2.2.filterMap urlOf = [] := by
  decide +kernel

/-! ## C43: crashes -/

/-- C43, in general: wherever Update is interrupted, no file but the default cache file differs, and that one holds what it
held (nothing, if it did not exist) with beginnings of complete downloaded lists written over it. -/
theorem C43_crash_leaves (idna : Idna) (hard : Bytes) (f : FastTLD) {w w' : World} (h : Crash (f.update idna hard) w w') :
    (∀ i, i ≠ w.loc (defaultPath w) → w'.nodes i = w.nodes i) ∧
    (w'.nodes (w.loc (defaultPath w)) = w.nodes (w.loc (defaultPath w)) ∨
      ∃ old g', ((∃ g, w.nodes (w.loc (defaultPath w)) = some (.file g) ∧ g.content = old) ∨
          (w.nodes (w.loc (defaultPath w)) = none ∧ old = [])) ∧
        w'.nodes (w.loc (defaultPath w)) = some (.file g') ∧ Layered w old g'.content) := by
  rcases crash_update h with rfl | ⟨-, hd, w1, g, ho, hg, ht⟩
  · exact ⟨fun _ _ => rfl, .inl rfl⟩
  · obtain ⟨rfl, g0, hg0, hoth, hloc, habs, htmp, hnet, -, -, -, -, horig⟩ := openForWriting_some ho
    rw [hg] at hg0; cases hg0
    refine ⟨fun i hi => by rw [ht.others i hi, hoth i hi], .inr ?_⟩
    obtain ⟨g', h1, h2, -, -⟩ := ht.file
    have hl : Layered w g.content g'.content := h2.mono (fun u b hb => ⟨by rw [← hnet]; exact hb.1, hb.2⟩)
    rcases horig with ho | ⟨ho, rfl⟩
    · exact ⟨_, g', .inl ⟨g, ho, rfl⟩, h1, hl⟩
    · exact ⟨_, g', .inr ⟨ho, rfl⟩, h1, hl⟩

/-- C43 if only one list is offered, it ends with its last marker, and the cache file is missing or holds a beginning of
that list (such as what an earlier crash left): the next New works, and uses the complete list or the built-in list.
Missing from the full statement: an old list other than the new one, see `C43_counterexample`. -/
theorem C43_crash_safe_partial (idna : Idna) (hard : Bytes) (f : FastTLD) {w w' w'' : World} {body : Bytes}
    (h : Crash (f.update idna hard) w w') (hsame : SameFiles w' w'')
    (hold : ∀ g, w.nodes (w.loc (defaultPath w)) = some (.file g) → g.content <+: body)
    (ho : OnlyOffers w body) (ho'' : OnlyOffers w'' body) (hb : WellTerminated body)
    (hco : Coherent w'') (hst : Stripped (defaultPath w) (defaultPath w))
    (n : SuffixListParams) (hcustom : ∀ c t, ¬ Usable w'' n.cacheFilePath c t) :
    ∃ x v evs, (new idna hard n).exec w'' = ((x, none), v, evs) ∧ (Serves idna x hard ∨ Serves idna x body) := by
  obtain ⟨hn, hl, ha, htmp⟩ := hsame
  have hpaths : w'.loc = w.loc ∧ w'.tmp = w.tmp := by
    rcases crash_update h with rfl | ⟨-, hd, w1, g, ho, hg, ht⟩
    · exact ⟨rfl, rfl⟩
    · obtain ⟨rfl, g0, hg0, hoth, hloc, habs, htmp, hnet, -⟩ := openForWriting_some ho
      exact ⟨by rw [ht.loc, hloc], by rw [ht.tmp, htmp]⟩
  have hdp : defaultPath w'' = defaultPath w := by unfold defaultPath; rw [htmp, hpaths.2]
  have hlp : w''.loc (defaultPath w) = w.loc (defaultPath w) := by rw [hl, hpaths.1]
  -- the file is a beginning of the list
  have hfile : ∀ g, w''.nodes (w''.loc (defaultPath w'')) = some (.file g) → g.content <+: body := by
    intro g hg
    rw [hdp, hlp, hn] at hg
    rcases (C43_crash_leaves idna hard f h).2 with he | ⟨old, g', hor, hg', hlay⟩
    · rw [he] at hg; exact hold g hg
    · rw [hg'] at hg; cases hg
      refine layered_prefix hlay ho ?_
      rcases hor with ⟨g0, h0, rfl⟩ | ⟨-, rfl⟩
      · exact hold g0 h0
      · exact List.nil_prefix
  cases hd : w''.canOpenDir w''.tmp with
  | false =>
    obtain ⟨evs, -, h2⟩ := exec_new_noDir idna hard n w'' hcustom hd
    exact ⟨_, _, _, h2, .inl rfl⟩
  | true =>
    by_cases hfresh : ∃ c t, Usable w'' (defaultPath w'') c t ∧ w''.clock - t ≤ threeDays
    · obtain ⟨c, t, hu, ht⟩ := hfresh
      obtain ⟨evs, -, h2⟩ := exec_new_fresh idna hard n w'' hcustom hd hu (by omega)
      obtain ⟨e, -, h4⟩ := exec_finishNew idna hard n (blank n (defaultPath w'')) w''
      have hst' : Stripped (defaultPath w'') (defaultPath w'') := by rw [hdp]; exact hst
      rw [h4] at h2
      have hne : defaultPath w'' ≠ [] := by unfold defaultPath; simp
      simp only [blank, hne, if_false, usable_read hco hu hst'] at h2
      refine ⟨_, _, _, h2, .inr ?_⟩
      have hr := usable_read hco hu hst'
      have hc : c <+: body := by
        unfold World.read at hr
        split at hr
        · rename_i g hg
          split at hr
          · simp at hr; rw [← hr]; exact hfile g hg
          · simp at hr
        · simp at hr
      obtain ⟨_, _, _, _, _, _, _, _, _, hm⟩ := hu
      exact trieOfText_torn idna _ hb hc hm
    · obtain ⟨evs, -, h2⟩ := exec_new_stale idna hard n w'' hcustom hd (fun c t hu => Int.not_le.1 fun h => hfresh ⟨c, t, hu, h⟩)
      cases hu : ((blank n (defaultPath w'')).update idna hard).exec w'' with
      | mk r q =>
        obtain ⟨x, err⟩ := r
        obtain ⟨v, e⟩ := q
        rw [hu] at h2
        cases err with
        | some err => exact ⟨_, _, _, h2, .inl rfl⟩
        | none =>
          refine ⟨_, _, _, h2, .inr ?_⟩
          obtain ⟨url, -, body', c, hof, hread, hpre, hserve, -⟩ := C40_installs_prefix idna hard _ w'' hu
          obtain rfl := ho'' _ _ hof
          have hcr := crash_exec ((blank n (defaultPath w'')).update idna hard) w''
          rw [hu] at hcr
          have hvl : v.loc = w''.loc := by
            rcases crash_update hcr with rfl | ⟨-, hd, w1, g, ho, hg, ht⟩
            · rfl
            · obtain ⟨rfl, g0, hg0, hoth, hloc, -⟩ := openForWriting_some ho
              rw [ht.loc, hloc]
          have hc : c <+: body' := by
            unfold World.read at hread
            rw [hvl] at hread
            split at hread
            · rename_i g hg
              split at hread
              · simp at hread
                rw [← hread]
                rcases (C43_crash_leaves idna hard _ hcr).2 with he | ⟨old, g', hor, hg', hlay⟩
                · rw [he] at hg; exact hfile g hg
                · simp only at hg'
                  rw [hg'] at hg; cases hg
                  refine layered_prefix hlay ho'' ?_
                  rcases hor with ⟨g0, h0, rfl⟩ | ⟨-, rfl⟩
                  · exact hfile g0 h0
                  · exact List.nil_prefix
              · simp at hread
            · simp at hread
          have : c = body' := hc.eq_of_length_le hpre.length_le
          rw [← this]; exact hserve

/-- Interrupted after 60 bytes of list B, where there was no file: the rest of the conditions can be met, and New
downloads the list again. -/
example : ((new idId builtin ⟨[], true⟩).exec
      (((⟨b! "/tmp/public_suffix_list.dat", .node false [], true⟩ : FastTLD).update idId builtin).crashAt 5 60 (exWorld none))).2.1.read
        (b! "/tmp/public_suffix_list.dat") = some listB ∧
    (((⟨b! "/tmp/public_suffix_list.dat", .node false [], true⟩ : FastTLD).update idId builtin).crashAt 5 60 (exWorld none)).read
        (b! "/tmp/public_suffix_list.dat") = some (listB.take 60) := by decide +kernel

example : WellTerminated listB ∧ OnlyOffers (exWorld none) listB ∧
    Stripped (defaultPath (exWorld none)) (defaultPath (exWorld none)) := by
  refine ⟨⟨listB.take (listB.length - endMarker.length - 2), [10], by decide +kernel, by decide, ?_⟩, ?_, stripped_iff.2 (by decide +kernel)⟩
  · rw [← bytesContains_iff]; decide +kernel
  · rintro url b ⟨h, -⟩
    simp only [exWorld] at h
    split at h
    · cases h; rfl
    · cases h

/-- The world after Update, over list A, was interrupted having written 37 bytes of list B. -/
def tornWorld : World :=
  ((⟨b! "/tmp/public_suffix_list.dat", .node false [], true⟩ : FastTLD).update idId builtin).crashAt 5 37
    (exWorld (some (.file ⟨listA, 0, true, true⟩)))

/-- What New makes of it. -/
def afterTorn : FastTLD := ((new idId builtin ⟨[], true⟩).exec tornWorld).1.1

/-- C43 is false otherwise: the new list written halfway over an old one has all section markers and a fresh modification
time, and the next New takes it.  It knows `org`, which only the new list has, and `c.com`, which only the old list has. -/
theorem C43_counterexample :
    Crash ((⟨b! "/tmp/public_suffix_list.dat", .node false [], true⟩ : FastTLD).update idId builtin)
      (exWorld (some (.file ⟨listA, 0, true, true⟩))) tornWorld ∧
    afterTorn.cacheFilePath = b! "/tmp/public_suffix_list.dat" ∧
    suffixOf afterTorn (b! "q.org") = some (b! "org", none) ∧ suffixOf afterTorn (b! "q.c.com") = some (b! "c.com", none) ∧
    suffixOf ⟨[], trieOfText idId true listA, true⟩ (b! "q.org") = some ([], none) ∧
    suffixOf ⟨[], trieOfText idId true listB, true⟩ (b! "q.c.com") = some (b! "com", none) ∧
    suffixOf ⟨[], trieOfText idId true builtin, true⟩ (b! "q.org") = some ([], none) :=
  ⟨crash_crashAt _ _ _ _, by decide +kernel⟩

/-! ## C44: histories -/

/-- An extractor, and the calls in its history: it comes from New, and from Update of an extractor. -/
inductive History (idna : Idna) (hard : Bytes) (n : SuffixListParams) : List Event → FastTLD → Prop
  | created {evs f err} (h : Run (new idna hard n) evs (f, err)) : History idna hard n evs f
  | updated {evs f evs' f' err} (h : History idna hard n evs f) (h' : Run (f.update idna hard) evs' (f', err)) :
      History idna hard n (evs ++ evs') f'

/-- C44: in every history, whatever the operating system answers. -/
theorem C44_invariants (idna : Idna) (hard : Bytes) (n : SuffixListParams) {evs f} (h : History idna hard n evs f) :
    f.includePrivateSuffix = n.includePrivateSuffix ∧
    (f.cacheFilePath = [] ∨ f.cacheFilePath = n.cacheFilePath ∨
      ∃ tmp, Event.tempDir tmp ∈ evs ∧ f.cacheFilePath = tmp ++ b! "public_suffix_list.dat") ∧
    (Serves idna f hard ∨ ∃ c, Event.readFile f.cacheFilePath (some c) ∈ evs ∧ Serves idna f c) := by
  induction h with
  | created h =>
    obtain ⟨-, h1, h2⟩ := C36_new idna hard n h
    refine ⟨h1, ?_⟩
    rcases h2 with ⟨hp, hs⟩ | ⟨c, hc, hs, hp | hp⟩
    · exact ⟨.inl hp, .inl hs⟩
    · exact ⟨.inr (.inl hp), .inr ⟨c, hc, hs⟩⟩
    · exact ⟨.inr (.inr hp), .inr ⟨c, hc, hs⟩⟩
  | updated h h' ih =>
    rename_i e x e' x' err
    obtain ⟨i1, i2, i3⟩ := ih
    have same : x' = x → x'.includePrivateSuffix = n.includePrivateSuffix ∧
        (x'.cacheFilePath = [] ∨ x'.cacheFilePath = n.cacheFilePath ∨
          ∃ tmp, Event.tempDir tmp ∈ e ++ e' ∧ x'.cacheFilePath = tmp ++ b! "public_suffix_list.dat") ∧
        (Serves idna x' hard ∨ ∃ c, Event.readFile x'.cacheFilePath (some c) ∈ e ++ e' ∧ Serves idna x' c) := by
      rintro rfl
      refine ⟨i1, ?_, ?_⟩
      · rcases i2 with h | h | ⟨tmp, h1, h2⟩
        · exact .inl h
        · exact .inr (.inl h)
        · exact .inr (.inr ⟨tmp, by simp [h1], h2⟩)
      · rcases i3 with h | ⟨c, h1, h2⟩
        · exact .inl h
        · exact .inr ⟨c, by simp [h1], h2⟩
    cases herr : err with
    | some err' => exact same (C39_failed_update idna hard x h' (by simp [herr])).1
    | none =>
      subst herr
      obtain ⟨tmp, h⟩ := run_update.1 h'
      rcases h with ⟨-, -, hr⟩ | ⟨hp, ⟨-, hr⟩ | ⟨hd, evs', ok, -, ⟨-, -, hr⟩ | ⟨-, c, he, hr⟩⟩⟩
      · simp at hr
      · simp at hr
      · simp at hr
      · cases c with
        | none => simp at hr
        | some c =>
          simp only [Prod.mk.injEq, and_true] at hr
          subst hr
          refine ⟨i1, .inr (.inr ⟨tmp, by simp [he], hp⟩), .inr ⟨c, by simp [he], rfl⟩⟩

/-- C44: Update never changes the path or the setting. -/
theorem C44_update_keeps (idna : Idna) (hard : Bytes) (f : FastTLD) {evs f' err} (h : Run (f.update idna hard) evs (f', err)) :
    f'.cacheFilePath = f.cacheFilePath ∧ f'.includePrivateSuffix = f.includePrivateSuffix := by
  obtain ⟨tmp, h⟩ := run_update.1 h
  rcases h with ⟨-, -, hr⟩ | ⟨hp, ⟨-, hr⟩ | ⟨hd, evs', ok, -, ⟨-, -, hr⟩ | ⟨-, c, he, hr⟩⟩⟩
  · cases hr; exact ⟨rfl, rfl⟩
  · cases hr; exact ⟨rfl, rfl⟩
  · cases hr; exact ⟨rfl, rfl⟩
  · cases c <;> cases hr <;> exact ⟨rfl, rfl⟩

/-- New, then Update. -/
example : ∃ evs f, History idId builtin ⟨[], false⟩ evs f ∧ f.cacheFilePath = b! "/tmp/public_suffix_list.dat" ∧
    (evs.filterMap urlOf).length = 4 :=
  ⟨_, _, .updated (.created (exec_run (new idId builtin ⟨[], false⟩) (exWorld none)))
    (exec_run (((new idId builtin ⟨[], false⟩).exec (exWorld none)).1.1.update idId builtin) (exWorld none)), by decide +kernel⟩

end Fasttld.Props
