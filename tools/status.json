{
 "C03": {
  "status": "partial",
  "note": "Host = SubDomain/Domain/Suffix with separators, then a tail. That the tail is only separators needs: no Suffix, or every top-level label of the list is a rule or the parent of a wildcard. The full claim is false of the code (C03_counterexample: co.za without za drops the .za). C03_exact: for a well-formed list the claim holds for all URLs if and only if the list is anchored (every rule that can be reached has a top-level label that is a rule or the parent of a wildcard)."
 },
 "C09": {
  "status": "partial",
  "note": "The claim is false of the code: C09_counterexample (example.com//evil.co.uk). C09_exact: it fails exactly for URLs that begin with a name and two slashes. C09_shape_partial proves the weaker shape of the scheme."
 },
 "C11": {
  "status": "partial",
  "note": "Proved with the signs that strconv.Atoi accepts: +80 and -0 are accepted as ports (C11_sign_accepted). The rejection half is proved in full. C11_exact: the port is a numeral if and only if it does not begin with a sign."
 },
 "C15": {
  "status": "partial",
  "note": "Domain equals the address if no rule ends in the last octet; without that condition Domain is a non-empty prefix (C15_counterexample). Success, host type, empty SubDomain and Suffix and the converse are proved for all lists. C15_exact: the address is whole for all URLs if and only if no rule of two or more labels has an octet as top-level label (or there is a rule *)."
 },
 "C21": {
  "status": "partial",
  "note": "Proved except for U+0378, U+206B, U+2A74, which the code accepts (C21_counterexample); when there is no Suffix it needs every top-level label of the list to be a rule (C21_counterexample_unchecked). C21_wellFormed: for a well-formed list it holds for all URLs, up to those three characters. C21_exact: then it holds for a host if and only if none of the three is in it."
 },
 "C22": {
  "status": "partial",
  "note": "Proved for the separators other than U+FF61, which the code lets through (C22_counterexample); when there is no Suffix it needs every top-level label of the list to be a rule. C22_exact: where U+FF61 does not occur, it holds for all URLs if and only if every top-level label of the (well-formed) list is a rule or the parent of a wildcard."
 },
 "C17": {
  "status": "partial",
  "note": "Proved, in both punycode modes and for the percent-decoded labels, for names for which the rule list is Regular (no gaps, no rule longer than a wildcard next to it, no bare *, exceptions have their wildcard); if a label is spelled with escapes there must be no exception rules. The condition is weakened to Tame in C17_tame_partial; C55 shows that on the level of lists it is exact. Outside of it the claim is false; four counterexample theorems."
 },
 "C24": {
  "status": "partial",
  "note": "Malformed escapes are errors and only they are (full). The cut depends only on the decoded labels, except that exception rules are compared with the undecoded label (C24_counterexample). C24_decoded: for all lists, two hosts with the same decoded labels are cut in the same way if and (with a Suffix) only if the exception at the first wildcard applies to both or to neither."
 },
 "C23": {
  "status": "partial",
  "note": "Proved for hosts without U+FF61, and for hosts whose only empty labels are at the end. U+FF61 is accepted at the start and next to a separator where the other separators are not (C23_counterexample). Acceptance by the IDNA library of the new spelling is a hypothesis (HostTextOf). C23_exact: when a new spelling is accepted with the same labels, for all hosts; otherwise it is reported as invalid. C23_all_spellings: for which labels every spelling is accepted."
 },
 "C26": {
  "status": "partial",
  "note": "Proved if there is a Suffix, or if every top-level label of the list is a rule or the parent of a wildcard; false otherwise (C26_counterexample). C26_exact: this condition on the (well-formed) list is exact; C26_names: for names of proper labels the exact condition is that the list is anchored."
 },
 "C27": {
  "status": "partial",
  "note": "Needs: every top-level label is a rule or the parent of a wildcard, Domain does not begin with a hyphen, RegisteredDomain is not an IPv4 address. Each condition is needed (three counterexample theorems). C27_exact: for anchored lists, a weaker condition, the other two conditions are exactly the right ones."
 },
 "C47": {
  "status": "partial",
  "note": "False without punycode conversion (C47_counterexample); proved with punycode conversion for IDNA libraries whose ASCII form does not depend on case. C47_exact: without punycode conversion, exactly which capital letters matter, for lists without capital letters and hosts without escapes; they can make the suffix shorter or longer (C47_counterexample_exception)."
 },
 "C37": {
  "status": "partial",
  "note": "Proved for paths without white space around them. False otherwise (C37_counterexample): New checks the trimmed path but reads the untrimmed one. C37_exact: the exact condition, for all paths but the default one."
 },
 "C40": {
  "status": "partial",
  "note": "Proved when the body is at least as long as the old cache file and writing works; in general the body is a beginning of the file and the rules are those of the file. False for shorter bodies (C40_counterexample): the file is opened without truncation. C40_exact: without write errors the file is the list followed by the rest of the old file, so the claim about the file holds iff the old file was not longer."
 },
 "C42": {
  "status": "partial",
  "note": "Proved when the temporary folder and the cache file can be opened; 'only if' proved always. False otherwise (C42_counterexample): the built-in list is used without asking the network. C42_hours: the comparison of hours as float64 in the code is the comparison of nanoseconds in the model, for every way of rounding. C42_exact: the exact condition."
 },
 "C43": {
  "status": "partial",
  "note": "Proved when the cache file was missing or a beginning of the one list offered; in general the file is the old one with beginnings of offered lists over it. False for a different old list (C43_counterexample): the mixture passes the marker check. C43_possible: each beginning of the offered list over the old file can be left behind."
 },
 "C46": {
  "status": "partial",
  "note": "Pieces, colours and text proved for all results; one line per component and injectivity for values without line breaks. Values with line breaks can make different results look the same (C46_counterexample). C46_exact: there are eleven line breaks if and only if no value contains one."
 },
 "C45": {
  "status": "partial",
  "note": "Proved for any number of concurrent Extracts and Updates under sequential consistency: every Extract returns the result for the one list installed at a moment during the call. Extract and Update do not synchronise, so Go does not promise sequential consistency; with stale loads the claim is false (C45_counterexample). C69: it is enough that the pointer to the list synchronises."
 },
 "C13": {
  "status": "partial",
  "note": "Exact for the grammar in Spec/Net. The claim as stated is false of the code: zero-padded groups, other separators in the dotted tail and separators after it are accepted (C13_wider_than_rfc4291). C13_exact: what is accepted is an address of RFC 4291 if and only if it has no five hexadecimal digits in a row, no other separator and no dot at the end; all addresses of RFC 4291 are accepted."
 },
 "C28": {
  "status": "partial",
  "note": "First half (both succeed) is covered in full. Second half needs a valid port and path in both URLs: a bad port is reported before a bad host (C28_counterexample). C28_exact: exactly for which endings it holds; C28_failure, C28_literal_failure: what is reported otherwise."
 },
 "C30": {
  "status": "partial",
  "note": "White space and CRLF in full. Comments other than the BEGIN PRIVATE marker line, which is a comment and changes the result (C30_marker_matters). C30_exact: exactly when a marker line changes the lists."
 },
 "C33": {
  "status": "partial",
  "note": "Proved for all sets of scalar values without U+FFFD, hence for every set the library uses. False with U+FFFD (C33_counterexample): invalid bytes decode to it and are trimmed. C33_exact: it holds for a set if and only if U+FFFD is not in it."
 },
 "C16": {
  "status": "proved",
  "note": "'Valid IPv6 literal' is the notation of C13's theorem, wider than RFC 4291 (C13_wider_than_rfc4291)."
 },
 "C34": {
  "status": "proved",
  "note": "Set members are Unicode scalar values (no surrogates)."
 },
 "C53": {
  "status": "proved",
  "note": "C53_local is the locality claim; C53_under leaves out all other rules; C53_conditions gives C03, C21 and C22 with the condition on the last label only."
 },
 "C54": {
  "status": "proved",
  "note": "Every line of the built-in list is part of the model; the facts about it are evaluated by the kernel, part by part. The conversion to ASCII is assumed to work label by label (ByLabel). C54_assembled covers hosts with and without punycode conversion; C54_conditions, without it, also gives the conclusions of C21 and C22."
 },
 "C55": {
  "status": "proved",
  "note": "C55_exact is the equivalence, C55_sufficient needs no assumption on the IDNA library, C55_witness is the negative half. The names that show the failures use a label of letters a that is longer than all labels of the list."
 },
 "C56": {
  "status": "proved",
  "note": "C56_exact is for all URLs, C56_dotted for a name alone. The names are those of Spec/Mishandled.lean, in terms of the rules and of the algorithm only. Host names whose labels have escapes or characters that the check rejects are not covered; escapes in the suffix are treated in C17 and C52."
 },
 "C57": {
  "status": "proved",
  "note": "C57_exact is C56 for the built-in list, C57_mishandled describes the names with and without the private section, C57_public simplifies it without, C57_gaps and C57_shadows show that no entry is superfluous (for za see the example). The conversion to ASCII is assumed to be ByLabel and Faithful; both can be met (apart_byLabel, apart_faithful)."
 },
 "C58": {
  "status": "proved",
  "note": "C58_spelling is for all lists, C58_flag for ConvertURLToPunyCode, C58_builtIn for the built-in list. RFC 3492 is written out in Spec/Punycode.lean, with unbounded integers (the RFC and the Go code report overflow), and C58_roundtrip proves that decoding undoes encoding. Both conditions are needed: C58_counterexample_exception (an exception that is not in ASCII), C58_counterexample_mixed (a host in which one label is in Unicode and another in Punycode)."
 },
 "C59": {
  "status": "proved",
  "note": "C59_shared, C59_grows. C59_counterexample proves the last sentence: two processes that download different lists leave a mixture of both with all section markers. The default cache file must not have white space around its path (C37)."
 },
 "C60": {
  "status": "proved",
  "note": "C60_new, C60_update: the outcome is the one in Spec/Behaviour.lean and that specification allows only one. Exact conditions for C37, C40, C42 follow (C37_exact, C40_exact, C42_exact). For changes during a call see C36-C41 (arbitrary answers) and C59."
 },
 "C61": {
  "status": "proved",
  "note": "C61_label is the general form, for any list without a wildcard at the top; that no rule ends in a digit, and that those ending in za are in ASCII, is checked line by line by the kernel; C61_addresses speaks of the host after punycode conversion, if that is on; C61_za shows that the last three statements fail under `za`."
 },
 "C62": {
  "status": "proved",
  "note": "One access is one map operation, one load of `end` or one load of f.tldTrie (Model/Memory.lean). C62_bound holds at every moment of every interleaving; C62_attained has a list and URLs with exactly 1 + 4*2 accesses; C62_builtin assumes a conversion to ASCII label by label, as C54 does. The work on the text of the URL is not counted."
 },
 "C63": {
  "status": "proved",
  "note": "From C52. The example has the one of the README and one URL for each kind of error, except a failed IDNA conversion."
 },
 "C64": {
  "status": "proved",
  "note": "C64_longer is the general form; C64_harmony (from a check of every private line by the kernel) and C64_private are for the built-in list, with a conversion to ASCII label by label as in C54. The examples have every outcome, and a pair of lists for each condition that shows that it is needed."
 },
 "C65": {
  "status": "proved",
  "note": "strconv.Quote and url.EscapeError are modelled; the table of printable characters is a parameter. The text of an error of the IDNA library is arbitrary: C65_texts and C65_controls are about the other errors, C65_texts_idna also about these if their texts begin with 'idna: '."
 },
 "C66": {
  "status": "proved",
  "note": "C66_any_status and C66_write_error are the last sentence. The writes of text/template are one per piece of the template. The printed time is assumed to have no back quote."
 },
 "C67": {
  "status": "proved",
  "note": "C67_counterexample_open and C67_counterexample_star: the conditions on the rules that are added are needed."
 },
 "C68": {
  "status": "proved",
  "note": "The list as built in; the downloaded list is not part of the repository."
 },
 "C69": {
  "status": "proved",
  "note": "The synchronisation is an assumption about processor and compiler, or about code with an atomic pointer; the Go memory model does not promise it for the code as it is (C45). C69_counterexample_stale: without the latest pointer the list may be one that was replaced before the call."
 },
 "C70": {
  "status": "proved",
  "note": "The counting functions of Model/Work.lean are proved to return what the model returns (C70_same). What idna does, and how many places a lookup in a map tries, are not counted."
 },
 "C71": {
  "status": "proved",
  "note": "The counting functions of Model/LoadWork.lean are proved to build what the model builds (C71_same). append counts one for each element, its average. What idna and the file system do is not counted."
 },
 "C72": {
  "status": "proved",
  "note": "Lines without the time that package log puts before them. C72_same: with logging, New and Update are the programs of Model/System.lean. What the programs under cmd and data/gen.go log is not included."
 },
 "C73": {
  "status": "partial",
  "note": "False of the code if the cache file cannot be opened for writing: New passes the wrong variable (fasttld.go:422) and logs only '<nil> Fallback to hardcoded Public Suffix List' (C73_lost, C73_counterexample). Proved for all other calls (C73_failures_partial), and for Update, which returns what it does not log (C73_update)."
 },
 "C74": {
  "status": "proved",
  "note": "Deferred calls are written out at every return. That Close itself may fail is not modelled; the code ignores it."
 },
 "C75": {
  "status": "proved",
  "note": "Spec/Uri.lean is the grammar of RFC 3986 (section 3 and appendix A) for URIs with an authority. The exception is real: for file:///etc.com/hosts Extract takes etc.com for the host (C75_empty_authority)."
 },
 "C76": {
  "status": "proved",
  "note": "Spec/Browser.lean has the URL Standard's parser as far as the text of the host (not its validation, not relative URLs, not scheme file). The exception is real (C76_exception, C76_example). Nothing is claimed about other schemes, where the Standard does not treat a backslash as a delimiter."
 },
 "C77": {
  "status": "proved",
  "note": "Not claimed of error texts: url.EscapeError has the three bytes after a percent sign, which may be part of a character."
 },
 "C78": {
  "status": "proved",
  "note": "The rules (Model/GoLang.lean) are those of the Go specification for the part of the language used; Model/Source.lean is the text as syntax, and C78_text proves that written out again it is the list of tokens which tools/gen_source.py read from the files. The sets of characters of the package are those that the text of makeASCIISet and makeRuneSet makes. The standard library, idna and intset are taken from the model. Without the bound on lengths it is false (example with an int of 4 bits)."
 },
 "C79": {
  "status": "proved",
  "note": "Trusted: the lexer (Model/GoLex.lean), and that Model/Files.lean is a copy of the files (tools/gen_source.py --check). fallback.go, the sixth file of the package, has the text of the list only (Model/Fallback.lean)."
 },
 "C80": {
  "status": "proved",
  "note": "The rules and the trusted parts are those of C78, C79 (C79_others has the tokens of psl.go). A slice of strings is a value here: append gives a new one; the code never has two slices of one array that are both appended to."
 },
 "C81": {
  "status": "proved",
  "note": "The rules for pointers, slices that share an array, composite literals and Scan are in Model/GoMem.lean; hashmap.Map is a map from keys to pointers (Get, Set, Scan), as in C51. Scan is checked not to assign a variable of the function around it (Stmt.keeps). Length + 1 of a suffix must be less than 2^(w-1), the largest int."
 },
 "C82": {
  "status": "proved",
  "note": "The rules and the trusted parts are those of C78, C79, C81. Of Update only the call of trieConstruct is run as text; what follows it, psl.go:206-211, is `publish` (Spec/TextThreads.lean). Interleavings are of whole accesses, sequentially consistent: Go does not promise that for this code (C45_counterexample). Every Update has a list that can be read (C81_error has the other case: nothing is published). Names shorter than 2^(w-1) - 4 bytes."
 },
 "C83": {
  "status": "proved",
  "note": "The rules for structures, defer, redeclaration, durations and the calls of other packages are in Model/GoSys.lean; the calls are those of Model/System.lean with arbitrary answers. Deferred calls run when a function returns; after a panic they would not be seen, but there is none. Length + 1 of a rule must be less than 2^(w-1). Constants of package os are those of Linux. The structures FastTLD belong to one goroutine while New and Update run; C82 has the goroutines."
 },
 "C84": {
  "status": "proved",
  "note": "The rules are those of C83. The structure belongs to one goroutine; C82 has the goroutines. The URL, and the ASCII forms that the IDNA library gives for names not longer than it, must be at least 4 bytes shorter than 2^(w-1); rules as in C83. A run of Extract exists if there are addresses left in memory."
 },
 "C85": {
  "status": "proved",
  "note": "The rules are those of C83, with switch and with Print and Println of github.com/fatih/color, which are events (Model/GoSys.lean); how attributes are shown on a terminal is left out. HostType has only its four named values, as everywhere in the model."
 },
 "C86": {
  "status": "proved",
  "note": "The rules are those of C83 to C85. Flags are parsed by cobra, and arguments counted (ExactArgs(1), cmd/fasttld/extract.go:24): left out, flags and argument are arbitrary. log.Fatal has no meaning in the rules, a run would be stuck. The bounds on the lengths of the URL and of the rules are those of C84. A run exists for all answers and texts if there are addresses left in memory (C86_ends). Of the file, lines 11 and 25-36 are compared with the tokens (C86_text)."
 },
 "C87": {
  "status": "proved",
  "note": "The rules are those of C83 and C84. The calls come one after the other (two goroutines with one extractor: C69, C82). The caller does not write to the fields of an extractor. The specification is Spec/Client.lean: a list of extractors as their user sees them, and what each call does to it. Calls in an order in which they can be made do run to their end, for all answers and texts, if there are addresses left in memory (C87_ends). The bounds on the lengths of the URLs and of the rules are those of C84."
 },
 "C88": {
  "status": "proved",
  "note": "The processes of Model/Shared.lean (C59) and the crashes of C43, with the text of C83 as their program (Model/GoShared.lean). Each process has a memory of its own with addresses left, and starts with New, or with Update of a structure that is an extractor. A file that is read has rules shorter than the largest int. The conditions on the world are those of C59 and C43 (names stay where they are, nobody else writes the default cache file, two paths for one place are treated alike); they are part of the statement, and C88_counterexample and C88_crash_counterexample show what happens without the condition of one list."
 },
 "C89": {
  "status": "proved",
  "note": "The text is that of C79, byte by byte, the functions are those that C79 shows to be the parse of it (C89_all: there are no others). The names of the packages by their paths are a table (Spec/Names.lean): the files of other modules are not part of the repository. Of a group in parentheses at package level the first name counts. One local name, publicSuffixListSources in update, is that of a variable of the package; the check scoped (Model/Source.lean) shows that where a variable of the package is read, no inner declaration has its name."
 },
 "C90": {
  "status": "proved",
  "note": "The statements of main are forms of their own (Model/GoDemo.lean), each with its tokens and a direct meaning; C90_text shows that the tokens of the file are those of these statements, between package, imports and braces. What they call, New, Extract, Update and PrintRes, is run by the text (C83 to C85, C87). log.Fatal has no meaning, and a run that reached it would not end as C90_demo shows it does. As in C84, lists and URLs are a few bytes shorter than the largest int. In C90_readme that no list was read is that no reading of a file gave contents."
 }
}