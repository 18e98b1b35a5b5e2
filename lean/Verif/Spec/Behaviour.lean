import Verif.Spec.System

/-!
# Specification: what New and Update do
-/

namespace Fasttld.Spec
open Fasttld

/-- The file after `data` was written at its beginning: what was behind stays. -/
def overwritten (w : World) (g : WFile) (data : Bytes) : WFile :=
  { g with content := data ++ g.content.drop data.length, modTime := if data = [] then g.modTime else w.clock }

/-- The sources are tried in order until one list was written in full: the sources, the file before and after, the
sources asked, and whether a list was written in full. -/
inductive Refreshed (w : World) : List Bytes → WFile → WFile → List Bytes → Bool → Prop
  | exhausted (g : WFile) : Refreshed w [] g g [] false
  /-- no complete list with the section markers, or no way back to the beginning of the file -/
  | skipped {url rest g g' asked ok} (h : (∀ body, ¬ Offers w url body) ∨ w.seekWorks = false) (h' : Refreshed w rest g g' asked ok) :
      Refreshed w (url :: rest) g g' (url :: asked) ok
  /-- only `k` bytes could be written -/
  | stopped {url rest g g' asked ok body k} (ho : Offers w url body) (hs : w.seekWorks = true) (hw : w.writeStops body = some k)
      (h' : Refreshed w rest (overwritten w g (body.take k)) g' asked ok) : Refreshed w (url :: rest) g g' (url :: asked) ok
  | written {url rest g body} (ho : Offers w url body) (hs : w.seekWorks = true) (hw : w.writeStops body = none) :
      Refreshed w (url :: rest) g (overwritten w g body) [url] true

/-- The default cache file when it is opened for writing: the one there is, if it is a file that can be written, or a new
one, if it can be created. -/
inductive Opens (w : World) : WFile → Prop
  | old {g} (h : w.nodes (w.loc (defaultPath w)) = some (.file g)) (hw : g.writable = true) : Opens w g
  | created (h : w.nodes (w.loc (defaultPath w)) = none) (hc : w.canCreate (w.loc (defaultPath w)) = true) :
      Opens w ⟨[], w.clock, true, true⟩

/-- Nothing changed in the file system except that the default cache file is now `g`. -/
def CacheIs (w w' : World) (g : WFile) : Prop :=
  w'.nodes (w.loc (defaultPath w)) = some (.file g) ∧ (∀ i, i ≠ w.loc (defaultPath w) → w'.nodes i = w.nodes i) ∧
  w'.loc = w.loc ∧ w'.absOf = w.absOf ∧ w'.tmp = w.tmp

/-- What Update does: the extractor before and after, the error, the sources asked, the world before and after. -/
inductive UpdateDoes (idna : Idna) (f : FastTLD) (w : World) : FastTLD → Option SysErr → List Bytes → World → Prop
  | otherFile (h : f.cacheFilePath ≠ defaultPath w) {w'} (hw : SameFiles w w') : UpdateDoes idna f w f (some .noOp) [] w'
  | cannotOpen (h : f.cacheFilePath = defaultPath w) (ho : ∀ g, ¬ Opens w g) {w'} (hw : SameFiles w w') :
      UpdateDoes idna f w f (some .openFile) [] w'
  | noList (h : f.cacheFilePath = defaultPath w) {g g' asked} (ho : Opens w g)
      (hr : Refreshed w publicSuffixListSources g g' asked false) {w'} (hw : CacheIs w w' g') :
      UpdateDoes idna f w f (some .allMirrors) asked w'
  | cannotRead (h : f.cacheFilePath = defaultPath w) {g g' asked} (ho : Opens w g)
      (hr : Refreshed w publicSuffixListSources g g' asked true) (hf : g'.readable = false) {w'} (hw : CacheIs w w' g') :
      UpdateDoes idna f w f (some .readFile) asked w'
  | done (h : f.cacheFilePath = defaultPath w) {g g' asked} (ho : Opens w g)
      (hr : Refreshed w publicSuffixListSources g g' asked true) (hf : g'.readable = true) {w'} (hw : CacheIs w w' g')
      {f'} (h1 : Serves idna f' g'.content) (h2 : f'.cacheFilePath = f.cacheFilePath)
      (h3 : f'.includePrivateSuffix = f.includePrivateSuffix) : UpdateDoes idna f w f' none asked w'

/-- The extractor has the built-in list. -/
def BuiltIn (idna : Idna) (hard : Bytes) (n : SuffixListParams) (x : FastTLD) : Prop :=
  Serves idna x hard ∧ x.cacheFilePath = [] ∧ x.includePrivateSuffix = n.includePrivateSuffix

/-- The extractor has the list in the file named by `p`, exactly as written; the built-in list if there is none. -/
def HasFile (idna : Idna) (hard : Bytes) (n : SuffixListParams) (w : World) (p : Bytes) (x : FastTLD) : Prop :=
  (p ≠ [] ∧ ∃ c, w.read p = some c ∧ Serves idna x c ∧ x.cacheFilePath = p ∧ x.includePrivateSuffix = n.includePrivateSuffix) ∨
  ((p = [] ∨ w.read p = none) ∧ BuiltIn idna hard n x)

/-- The default cache file is usable and not older than 72 hours. -/
def Fresh (w : World) : Prop := ∃ c t, Usable w (defaultPath w) c t ∧ w.clock - t ≤ threeDays

/-- What New does: the extractor, the sources asked, the world before and after. -/
inductive NewDoes (idna : Idna) (hard : Bytes) (n : SuffixListParams) (w : World) : FastTLD → List Bytes → World → Prop
  | custom {c t} (h : Usable w n.cacheFilePath c t) {x} (hx : HasFile idna hard n w n.cacheFilePath x) {w'} (hw : SameFiles w w') :
      NewDoes idna hard n w x [] w'
  | noFolder (h : ∀ c t, ¬ Usable w n.cacheFilePath c t) (hd : w.canOpenDir w.tmp = false) {x} (hx : BuiltIn idna hard n x)
      {w'} (hw : SameFiles w w') : NewDoes idna hard n w x [] w'
  | fresh (h : ∀ c t, ¬ Usable w n.cacheFilePath c t) (hd : w.canOpenDir w.tmp = true) (hf : Fresh w) {x}
      (hx : HasFile idna hard n w (defaultPath w) x) {w'} (hw : SameFiles w w') : NewDoes idna hard n w x [] w'
  | updated (h : ∀ c t, ¬ Usable w n.cacheFilePath c t) (hd : w.canOpenDir w.tmp = true) (hf : ¬ Fresh w) {x f asked w'}
      (hp : f.cacheFilePath = defaultPath w) (hi : f.includePrivateSuffix = n.includePrivateSuffix)
      (hu : UpdateDoes idna f w x none asked w') : NewDoes idna hard n w x asked w'
  | notUpdated (h : ∀ c t, ¬ Usable w n.cacheFilePath c t) (hd : w.canOpenDir w.tmp = true) (hf : ¬ Fresh w) {x f y err asked w'}
      (hp : f.cacheFilePath = defaultPath w) (hi : f.includePrivateSuffix = n.includePrivateSuffix)
      (hu : UpdateDoes idna f w y (some err) asked w') (hx : BuiltIn idna hard n x) : NewDoes idna hard n w x asked w'

end Fasttld.Spec
