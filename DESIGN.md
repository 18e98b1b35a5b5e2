# Formal model of go-fasttld in Lean 4

## Approach

Layers (all under `lean/Verif/`):

* `Model/`: the code as it is, function by function, index by index. Go strings are `List UInt8`, Go `int`
  indices are `Int` (so `-1` is `-1`), every slice and index expression that is not bounded by its own loop
  header can *fault* (`Fault.sliceBounds`, `Fault.indexRange`), every data-dependent loop is fuelled and faults
  with `Fault.outOfFuel` when the fuel ends. "Never panics and terminates" is then a theorem, not an assumption.
* `Spec/`: small independent specifications that mention no model helper: UTF-8 encoding, grammars,
  list-splitting, the publicsuffix.org algorithm over label lists, the whole of `Extract` (`Spec/Extract.lean`).
* `Proofs/`: helper lemmas and the refinement of the index code to a split-based functional description
  (`extractF`, Proofs/Refine.lean).
* `Props/`: the property theorems, one file per group, each with concrete non-vacuity examples and, where the
  code violates the property, the negation proved on a concrete witness (`..._counterexample`).
* `Tests/`: the repository's own test tables evaluated on the model (`#guard`: tests, not proofs).

`Spec/` imports from `Model/` only types (`Bytes`, `ExtractResult`, `Err`, `URLParams`, `Idna`, ...).

## Trusted base

* The Lean 4.33.0 kernel. Concrete cases are checked with `decide` or `decide +kernel` (the kernel evaluates; no
  `native_decide`, no `bv_decide`, no compiler).
* The axioms of Lean's library only: `propext`, `Quot.sound`, `Classical.choice`. No axiom is declared here.
  `AXIOMS.md` lists the axioms of every theorem in MANIFEST.json (written by `tools/gen_axioms.py`). Mathlib is not
  imported.
* For `Extract`, the functions of strings.go and net.go that it calls and the functions of psl.go that read a list: the rules of Go in Model/GoLang.lean (meaning),
  GoText.lean (syntax) and GoLex.lean (tokens), and that Model/Files.lean is a copy of the files (`tools/gen_source.py
  --check` compares). That Model/Strings, Net, Extract and Psl say what this text means is proved (C78, C79, C80), and that Model/Memory says what the text of reverse, nestedDict, trieConstruct (C81) and Extract (C82) means; that Model/Log says what the text of New, Update and the functions of psl.go that they call means is C83, and what Extract logs C84; that Model/Print says what the text of PrintRes and of the command `fasttld extract` means is C85 and C86; all by the rules in
  Model/GoMem.lean (memory) and GoSys.lean (operating system, `defer`, structures, output).
* For the rest: that the definitions in `Model/` say what the Go code does. Every definition cites file and lines. Evidence,
  not proof: `Tests/` runs the tables of `fasttld_test.go`, `net_test.go`, `strings_test.go`, `psl_test.go` on the model.
* The contracts of code outside the repository, listed next.

## What is modelled, and how

| code | model | remarks |
|------|-------|---------|
| strings.go, net.go | Model/Strings, Sets, Net, Utf8 | all functions; `asciiSet` with 32-bit words |
| fasttld.go `Extract` | Model/Extract | all branches, all early returns with the partially filled result |
| the text of `Extract` and 15 functions that it calls, and of 4 functions of psl.go | Model/Files, GoLex, GoText, GoLang, Source, GoProgram | bytes, tokens, syntax, meaning (C78, C79) |
| the text of `reverse`, `nestedDict`, `trieConstruct` | the same, and Model/GoMem for memory | pointers, slices that share an array, calls of `Scan` (C81) |
| the text of `Extract`, with the trie in memory | the same | `f.tldTrie` and the nodes are loaded where the text says so (C82) |
| the text of `New`, `Update` and 9 functions that they call | the same, and Model/GoSys | calls to the operating system, log, `defer`, structures `FastTLD` (C83) |
| the text of `Extract` and `formatAsPunycode`, with the log | the same | on the structure that `New` returns (C84) |
| the text of `PrintRes` and of `Run` in cmd/fasttld/extract.go | the same, and Model/GoCli | what is printed, with its attributes; the flags are parameters (C85, C86) |
| programs that call New, Extract and Update | Props/SourceClient.lean | calls one after the other, on any number of extractors (C87) |
| the text of examples/demo.go | Model/DemoFile (generated), Model/GoDemo | the statements of `main` are forms of their own, with their tokens and a direct meaning; what they call is run by the text (C90) |
| processes that run New and Update by the text | Model/GoShared.lean | turns after every memory access, call and piece of a write; death at any time (C88) |
| fasttld.go `nestedDict`, `trieConstruct` | Model/Trie (values), Model/Memory (nodes with pointers, in place) | C51 relates the two |
| psl.go parsing | Model/Psl | `processLine` and its callers |
| psl.go, fasttld.go `New`, `Update`, `update`, `checkCacheFile`, ... | Model/System | programs over system calls |
| file system, clock, network | Model/World | POSIX writes; crash in the middle of a write |
| several processes with one cache file | Model/Shared | interleavings of system calls and parts of writes |
| concurrent `Extract`/`Update` | Model/Memory | interleavings of memory accesses; a weaker memory with stale loads |
| print.go | Model/Print | styled pieces of text |
| cmd/fasttld/*.go, cmd/main.go | Model/Print, Model/System | flags, calls, output; cobra's flag parser is not modelled |
| fallback.go | Model/Fallback, FallbackPublic, FallbackPrivate | all 15693 lines, copied by `tools/gen_fallback.py` (`--check` compares) |
| data/gen.go | Model/Gen, Model/Print | `main` with its failures, the template and Go's raw string literals |
| error texts | Model/Errors, Log | of Extract; of New and Update as parameters or constants |
| log output, `Close` | Model/Log | New, Update and Extract once more, with both (C72, C74) |
| how often loops run | Model/Work, LoadWork | `Extract` and reading a list once more, with a count (C70, C71) |

Contracts of other code:

* **IDNA** (`idna.ToASCII`, `idna.Lookup.ToASCII`, `idna.ToUnicode`): a parameter `Idna` of three arbitrary functions.
  Theorems hold for all of them unless a hypothesis says otherwise (C47, C23 state theirs; C54, C57 assume a conversion
  label by label, C58 the one of RFC 3492, Spec/Punycode.lean). That `golang.org/x/net/idna` is so was not checked: its
  source is not in the repository. `Tests/Punycode.lean` compares Spec/Punycode.lean with Python's codec.
* **`hashmap.Map`**: an association list with Get/Set/Len; Scan visits all entries, in any order (C18, C51).
* **`intset.Rune`**: a finite set of runes.
* **Standard library** (`strconv.Atoi`, `url.QueryUnescape`, `utf8.DecodeRune`, `utf8.DecodeLastRune`, range over a
  string, `strings.TrimSpace`, `Split`, `HasPrefix`, `bytes.Contains`, `strconv.Quote`, the writes of `text/template`): written out from the documentation and source;
  `int` has any size from 32 bits on in C78, elsewhere it is an integer. `filepath.Abs`, `os.*`, `http.Get` are calls with arbitrary answers (`Op`).
* **Go memory**: `int` overflow is excluded because all indices are bounded by string lengths: proved in C78, where
  arithmetic wraps around, for `Extract` and what it calls. Memory exhaustion
  and stack limits are not modelled.

Not modelled: what the programs under cmd and data/gen.go log, errors of `Close` (the code ignores them), the
time taken (but see C62, C70, C71), test and benchmark code, `log.Fatal` in `examples/demo.go` (never reached, C90), `getCurrentFilePath` (never called by library code).

### Times

`fileLastModifiedHours(...) > 72` compares a `float64`. The model compares the duration in nanoseconds with 72 h.
`C42_hours` proves that the two agree, for every way of rounding to `float64` (Spec/Float.lean: `Duration.Hours` and the
saturation of `Time.Sub`, from the documentation and source of package time).

### Programs, answers, worlds, crashes (Model/System, Model/World, Model/Shared)

A program is a tree: every node is a system call, its children are indexed by the answers. `Run p evs a` says that `p`
may make the calls `evs` with these answers and return `a`; nothing relates the answers, so theorems over `Run` cover
every file system, clock and network, including ones that change between two calls. `Prog.exec` runs a program in a
`World` (files with contents, times and permissions; a temporary folder; a clock; for every URL a response; bounds on
how much of a write succeeds). `Crash p w w'` says that a process running `p` in `w` may die and leave `w'`: before or
after any call, or in a write of which a part arrived. `Shared.Steps` (Model/Shared) lets any number of processes take
turns in one world, call by call, writes in pieces; each has its own position in the file.

### Memory and concurrency (Model/Memory)

`Extract`, `Update` and the construction of the trie are programs over memory accesses (read a node, look up a child,
mark, allocate, add a child, load and store the root pointer). `Steps` interleaves any number of them, one access at a
time (sequential consistency). In `WSys.run` every load, of the root pointer or of a node, may
return any value stored there before, except one older than the goroutine's own last store. The code does not synchronise
`Extract` and `Update`, so the Go memory model does not exclude stale loads; C45 is therefore partial. `WSys` is a simple
over-approximation for the counterexample, not a model of the Go memory model. In between, Model/Views lets loads
return old values except that whoever loads `f.tldTrie` knows what the goroutine that stored it knew (release, acquire); C69 proves
that this is enough. It is an assumption about processor and compiler, or about a version of the code with an atomic
pointer.

### The built-in list (Model/Fallback)

A line is a number, its bytes in base 256 (`lines!`, Model/Lines.lean, reads a string literal at elaboration time; `unpack`
gives the bytes back). That makes the kernel evaluate 15693 lines in about three minutes. `tools/gen_inventory.py` writes a search tree of the parents
of all rules, with the part of the list where each is found. It is only a hint: Proofs/Inventory.lean checks every line
against the tree and the tree against the lines, and Proofs/InventoryFacts.lean proves what these checks mean. The
lists of irregular names in Spec/BuiltIn.lean are written by the same script; only their completeness is used. Trusted: that
`gen_fallback.py` copied the lines.

## Findings

Behaviour of the model that contradicts a claim or is surprising. Theorem names are given; they are kernel-checked
statements about the *model*. Nothing here was observed by running the Go code, which was only read.

* **A host label is dropped**: if a rule exists below a top-level label that is neither a rule nor the parent of a
  wildcard, the end of the suffix is found too late and the last label belongs to no part of the result
  (`C03_counterexample`, `C17_counterexample_top`, `C26_counterexample`, `C27_counterexample_top`). The
  built-in list has exactly one such label, `za` (`C54_top`, `C54_za_gap`): with it, `www.example.co.za` gets Suffix
  `co` (`C54_za`). So the condition `TopRules` of the partial theorems for C03,
  C21, C22, C26, C27 does *not* hold for the built-in list; they apply to hosts with a Suffix. For C03, C21, C22 the condition is needed
  only for the last label of the host itself (`C53_conditions`), so with the built-in list for hosts that do not end
  in `za` (`C54_conditions`).
* **Gaps**: labels that lead to longer rules without being a rule become part of the suffix (`C17_counterexample_gap`).
  The built-in list has at most 11 such places below the top level in its public part and 352 in all
  (`C54_regular`); with it, `example.hordaland.no`, whose public suffix is `no`, gets Suffix `hordaland.no` (`C54_no`).
* **Wildcards hide longer rules** next to them (`C17_counterexample_shadow`); in the built-in list below at most 5 names, all private
  (`C54_regular`; `tools/list_stats.py` finds 9 rules).
* **Deep and bare wildcards** give no suffix (`C17_counterexample_deep`, `C17_counterexample_bare`).
* **Exceptions** are compared with the undecoded label (`C24_counterexample`) and only next to a `*`
  (`C17_counterexample_exception`). `C24_decoded` says, for all lists, when this makes a difference.
* **`byte(c)`** in hasInvalidChars truncates code points: U+206B (`C21_counterexample`), U+0378 and U+2A74
  (`C21_counterexample_others`) are accepted; U+FF61 is not treated as a separator (`C22_counterexample`,
  `C23_counterexample`). Without a suffix, matched labels are not checked (`C21_counterexample_unchecked`).
* **Schemes without colon** (`C09_counterexample`; exactly for which URLs: `C09_exact`).
* **Ports with a sign** (`C11_sign_accepted`, `C11_negative_zero_accepted`; nothing else: `C11_exact`).
* **IPv6** is wider than RFC 4291 (`C13_wider_than_rfc4291`; in exactly three ways: `C13_exact`). An invalid port after a valid IPv6 host leaves HostType
  IPv6 (`C05_ipv6_port_example`).
* **IPv4**: a rule that ends in a number shortens Domain (`C15_counterexample`; exactly which lists: `C15_exact`).
* **The reason is not logged**: if Update fails in New, the line about the built-in list begins with `<nil>`
  (fasttld.go:422 passes `err`, not `updateErr`; `C72_new`); if the cache file cannot be opened, nothing else is logged (`C73_lost`).
  An entry that idna refuses is logged with `124`, the number of `|` (`C72_complaints`, `C72_new_example`), and Extract logs
  `idna: invalid label` without the label (`C72_label`).
* **Which lists** C03, C22 and C26 hold for: `C03_exact`, `C22_exact`, `C26_exact`, `C26_names` (Props/Lists.lean).
* **A bad port hides a bad host** (`C28_counterexample`; exactly when: `C28_exact`).
* **Labels may begin with a hyphen**, except the first (`C27_counterexample_dash`). With an anchored list this and
  addresses are the only reasons for which the registered domain gives other parts (`C27_exact`).
* **Two spellings**: rules are stored in Unicode and in Punycode, but an exception that is not in ASCII is lost in Punycode
  (`C58_counterexample_exception`; the built-in list has none), and hosts that mix both are not recognised
  (`C58_counterexample_mixed`).
* **Case**: matching is case-sensitive without punycode conversion (`C47_counterexample`). `C47_exact` says which capital
  letters matter. In the label of an exception they make the suffix longer (`C47_counterexample_exception`).
* **Other separators**: `C23_exact` says when a host in which separators are exchanged is still accepted.
* **`.com`** is an error with RegisteredDomain `.com` (`C04_separator_only`).
* **Trimming U+FFFD** would also trim invalid bytes (`C33_counterexample`, `C33_exact`); no set in the library contains it.
* **Update does not truncate** (`C40_counterexample`); a crash can leave a mixture that passes the marker check
  (`C43_counterexample`), and so can two processes that download different lists, without a crash (`C59_counterexample`);
  a failed Update can create an empty file (`C39_empty_file`).
* **checkCacheFile trims the path, trieConstruct does not** (`C37_counterexample`).
* **If the temporary folder cannot be opened**, the network is not asked (`C42_counterexample`).
* **Markers** may be inside other lines for the check but not for the parser (`C31_markers_in_line`). `C30_exact` says when
  a marker line changes the lists.
* **PrintRes** with line breaks in a value is ambiguous (`C46_counterexample`, `C46_exact`).
* **gen.go** breaks on back quotes (`C50_back_quote`, `C50_generated`). It checks neither status nor markers
  (`C66_any_status`) and does not report write errors (`C66_write_error`).
* **RFC 3986**: an empty port and a port above 65535 are errors (`C75_port`), hosts of future versions too (`C75_ipvFuture`).
  With an empty authority the first segment of the path becomes the host: `file:///etc.com/hosts` (`C75_empty_authority`).
* **Browsers**: `http:80` has the host `http` (`C76_example`, `C76_exception`); a browser says `80`. With other schemes a
  browser does not stop at a backslash (`foo://a.com\@b.com`, by reading); with http and the like there is no other difference
  (`C76_same_host`).
* **Extract and Update do not synchronise** (by reading); with stale loads a result belongs to neither list
  (`C45_counterexample`).

## Tests of the model

Not proofs, but evidence that the model is the code. `Tests/Conformance.lean` has every row of the tables in
/repo/fasttld_test.go, `Tests/Helpers.lean` the tables of the helper functions. `tools/port.py` is a second translation
of `Extract` and its helpers, into Python, made from the Go text, but by the author of the model and after it. `Tests/Port.lean` compares
the two on 300 random URLs in each build; on 820000 more (`tools/gen_port_tests.py SEED N OUT`, seeds 1 to 5 of an earlier
form of the generator) there was no difference. A third or more of these random URLs end early, with an invalid port.
A misreading of the Go text made in both translations would not be noticed.
`Tests/Punycode.lean` compares Spec/Punycode.lean with Python's codec on all labels of the built-in list that are not in
ASCII and on 200 random ones; 69 of them have their Punycode form in a comment of the list, and these agree too.

## Wrong programs

`seeded/LOG.jsonl` has one line per wrong program: a definition of the model edited in a scratch copy, the claim it is
meant to break, and what happened. `seeded/gen_mutants.py` has the edits, `seeded/mutate.py` applies them and builds.
How to read it: `theorems_failed` are declarations whose proof was rejected by Lean. `blocked` are property theorems
that use one of those; they were not rebuilt, so this does *not* show that their statements are false of the wrong
program. A rejected proof can also be a proof that is merely too rigid. `refuted` is filled where a concrete case of the
claim was evaluated to false on the wrong program (`seeded/refute.py`); only that is direct evidence. `refuted_own` are the
cases of the claim the edit was meant to break. `tightened` names what was added because the first run did not refute
that claim; these cases are in `Props/Cases.lean`, `Props/CasesSystem.lean` and `Props/CasesLate.lean`. `seeded/make_log.py` writes the log. The claims of M25, M35 (now C52),
M37 (now C25), M92 (now C42), M185 (now C52) and M209 (now C17) were changed after the first run: the edits do not break the claims they were first meant to break.

The lines G... are edits of the Go text (`seeded/gotext.py`, `seeded/gotext.json`), the lines H... edits of the definitions
for C87 to C90 (`seeded/late.py`, `seeded/late.json`). There `theorems_failed` is the first module with failures, and `cases_false`
are concrete cases evaluated to false. The first runs of gotext.py had a fault: where a module could not read its imports
(modules made anew clashed with old ones), the driver went on with nothing imported. So in these runs an empty `cases_false` did not show that the
cases were evaluated; it is `null` in the log, with a note. The runs of G79 to G84 failed in this way only, and are not results;
G73 to G84 were run again with the corrected script, and the log has what that run gave. A failed import cannot make a case false, so the cases
listed as false stand. The same driver was used by refute.py, where the fault could only leave cases out.
No theorem failed for G72 (the count of `strings.SplitAfterN`): the rule for that function ignored its count. It was corrected. For G73 a proof failed but no
concrete case was false; a case was added. Neither edit was run again after that. The edits H... and part of the M... reruns were prepared but not run.

## Statements and status

The statements in properties.jsonl were not reworded after they were first written, with one exception: in C55 the
assumption on the IDNA library first was "accepts the labels of the rules", which is weaker than what the theorem assumes. Where a theorem has a condition that
the statement lacks, the claim is `partial`, also if the statement is false of the code and so cannot be proved.
One kind of condition is not counted: C78, C81 to C84, C86 to C88 and C90 are about an `int` of w bits, and assume of names or rules that they are a few bytes
shorter than the largest `int`, 2^(w-1) - 1 (the notes say how many). No text in Go is longer than that; the few lengths in between are not covered.

## Plan per property

| id | modelled | proof |
|----|----------|-------|
| C01 | all of `Extract` and its helpers with faults | each helper equals a total function; the loop invariant keeps 0 <= idx <= len |
| C02 | same | refinement to split-based description, then list algebra |
| C03 | same | partial: false when the host's TLD label is in the list only as an inner node; witness + theorem under that guard |
| C04, C05, C06 | same | case analysis over exits of the refined description |
| C07 | fastTrim + UTF-8 | trimming is unique decomposition; padding keeps the core |
| C08 | getSchemeEndIndex | loop = takeWhile description |
| C09 | same | false; witness + exact form (C08) |
| C10 | indexLastByteBefore | loop = last '@' of takeWhile |
| C11 | port branch, Atoi | partial: Atoi admits a sign; witness + exact language |
| C12 | path branch | refined description |
| C13 | isIPv6, xtoi | loop invariant against a grammar on group lists; deviations (long zero-padded groups, trailing separators after IPv4 tail) are in the grammar and witnessed |
| C14 | isIPv4, dtoi | equivalence with decimal grammar |
| C15 | Extract IPv4 branch | partial: a rule whose TLD is numeric moves the cut; witness + theorem |
| C16 | bracket scan | refined description |
| C17 | trie + walk | partial under stated shape conditions, four witnesses for the dropped conditions |
| C18, C19 | nestedDict, trieConstruct | trie lookup characterised by rule set by induction over insertions |
| C20-C22 | hasInvalidChars | exact description; partial because of the `byte(c)` truncation, witnesses |
| C23 | walk | label-list description is independent of the separator bytes |
| C24, C25 | walk, QueryUnescape | label-list description |
| C26, C27, C28 | Extract | relational corollaries of the refined description |
| C29-C31 | processLine etc. | induction over lines |
| C32 | asciiSet with BitVec 32 words | bit lemmas |
| C33, C34 | UTF-8 forward/backward decoding | self-synchronisation lemma |
| C35 | in-place swap loop | index extensionality |
| C36-C45 | New/Update/update over explicit environment | case analysis; induction over histories, crash points and schedules; C37, C40, C43 partial with witnesses |
| C46 | PrintRes as list of styled segments | computation + injectivity |
| C47 | Extract | false; witness; exactly which capital letters matter, by comparing the walks |
| C48 | hasInvalidChars | exact description of the accepted byte strings |
| C49 | extractCmd | program over calls and output events |
| C50 | gen.go template, Go raw string literals | lexing of the generated constant |
| C51 | nodes with pointers, nestedDict and Scan in place | separation-style invariant, weakest preconditions |
| C52 | all of `Extract` | soundness and totality of a declarative relation, piece by piece |
| C53 | rules under other top-level labels | tries that agree below the last label give the same walk |
| C54 | fallback.go | kernel evaluation against a search tree, soundness of the checks, then C17, C52, C53 |
| C55 | none new | label-level: weak conditions give C17 for all names; conversely, for each violation a name with a new label of letters `a`, run through C52 |
| C56 | none new | what the walk finds (Follows, Stops, FirstMark) agrees with the algorithm iff the name is not `Mishandled`, by cases on why the walk stops |
| C57 | the labels of all lines, that the listed gaps are not rules and have rules below them: evaluated by the kernel (Proofs/FallbackGaps*.lean, FallbackLabels.lean) | the list is well formed; the cases of C56 in terms of the gaps and shadowed wildcards; both lists are exact |
| C58 | RFC 3492 (specification only); that all lines are UTF-8: evaluated by the kernel (Proofs/FallbackText.lean) | decoding undoes encoding; the rules of a name and of its conversion agree place by place; then C52 |
| C59 | several processes in one world | weakest preconditions over what a process knows of the cache file; an invariant of all steps |
| C60 | none new | execution of the programs against a declarative specification, which is deterministic; C37, C40, C42, C43 made exact |
| C61 | that no rule ends in a digit, and that the rules below `za` are in ASCII: evaluated by the kernel (Proofs/FallbackTop.lean) | C15, C21, C22, C26, C27 for the built-in list, from the conditions of C53 and of Props/Lists.lean |
| C62 | one access is one operation on the map of a node, one load of a field `end`, one load of `f.tldTrie` (as C45 and C51); goroutines with sequential consistency; ByLabel for the built-in list | a count for every interleaving; what is done with the text of the URL is not counted |
| C63 | none new | cases of C52 |
| C64 | every private line compared with the public rules: evaluated by the kernel (Proofs/FallbackPrivate.lean) | following the labels in a longer list gets at least as far; then C52 |
| C65 | the error texts, `url.EscapeError`, `strconv.Quote` (Model/Errors.lean) | what Quote writes is a string literal of Go (Spec/Literal.lean) with the quoted value; the value of a literal is unique |
| C66 | `main` of gen.go (Model/Gen.lean) | cases; the number of back quotes in a beginning of the file |
| C67 | none new | two lists with the same answers along a name take the same way (Spec/Path.lean); then C52 |
| C68 | the examples of README.md; that a few rules are not in the list: evaluated by the kernel (Proofs/FallbackAbsent.lean); ByLabel, and the IDNA answers for the hosts of the examples | by C67 a few rules are enough, then evaluation |
| C69 | memory with release and acquire for `f.tldTrie` only (Model/Views.lean) | the invariant of C45, with what each goroutine knows; simulation by sequential consistency |
| C70 | steps as counted by Model/Work.lean: iterations, bytes gone through or copied by the standard library, lookups with the length of the key; not idna, not the places a map lookup tries | the counting functions return what the model returns; bounds by induction; the suffix loop telescopes |
| C71 | the same for reading a list (Model/LoadWork.lean); `append` at its average; IDNA writes at most c bytes for one | induction over lines and rules; the paths to the nodes have no repetition and are the beginnings of rules |
| C72 | none new; `Println`, `fmt.Sprint` of an int, `strings.SplitAfterN`; texts of errors arbitrary (Model/Log.lean) | with logging the programs are those of Model/System.lean; induction over their calls |
| C73 | the same | the failed call is the last, or has a line of its own |
| C74 | deferred calls written out at every return | what is open is tracked through every run |
| C75 | none new; the grammar of RFC 3986 in Spec/Uri.lean | the authority of the grammar is the one of C52; then C28 for names, C13 for IPv6 |
| C76 | none new; the URL Standard up to the text of the host in Spec/Browser.lean | what an accepted host can contain; both cut the same text at the same places, by the kind of scheme that Extract found |
| C77 | none new | a text can be cut before every byte that is not a continuation byte; all cuts of C52 are such |
| C78 | syntax, tokens and meaning of a part of Go (Model/GoLang.lean, GoText.lean); the text of 20 functions (Model/Source.lean) | symbolic execution statement by statement; loops by induction; overflow excluded by the lengths |
| C79 | the bytes of six files (Model/Files.lean), a lexer for Go (Model/GoLex.lean) | kernel evaluation |
| C80 | as C78 | symbolic execution; the loop over the lines by induction |
| C81 | Model/GoMem.lean, `Sim` (Spec/Accesses.lean) | symbolic execution; same accesses as Model/Memory.lean, then C51 |
| C82 | Spec/TextThreads.lean, `Returned` (Spec/Accesses.lean) | functions without pointers run alike with and without memory (Proofs/SourcePlain.lean); the walk by symbolic execution; then the invariant of C45 |
| C83 | Model/GoSys.lean | symbolic execution; a program with memory simulates one without (`Impl`, Proofs/SourceSysImpl.lean); then C51, C72, C74 |
| C84 | as C83 | up to the IDNA stage without memory (C78), the walk from C82; a part that does not log or ask runs alike in Model/GoMem and GoSys (Proofs/SourceSysQuiet.lean) |
| C85 | as C83, with output as an event | symbolic execution, one lemma for a label and one for a value; then C46 |
| C86 | as C85; Model/GoCli.lean | symbolic execution; `Impl` of C83 and C84 composed; then C36, C52, C74 |
| C87 | as C83, C84; spec Spec/Client.lean | an invariant of the structures in memory, kept by each call: C83, C84 (`Impl`), then C36, C39, C44, C52, C74; induction on the calls |
| C88 | Model/GoShared.lean; spec Spec/Shared.lean, Spec/System.lean | simulation `Acts` of the text by the programs of Model/System.lean, from `Impl` (C83) and `Forgets` (C72); then C59, C43; back by induction on the schedule |
| C89 | the bytes of the files (C79); spec Spec/Names.lean | a check of every name with its neighbours, its soundness, kernel evaluation on the files |
| C90 | Model/GoDemo.lean, C85, C87; spec Spec/Demo.lean | tokens by kernel evaluation; one statement at a time, with the lemmas of C87; then C52, C68 |
