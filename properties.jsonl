{"id": "C01", "title": "Extract never panics and always terminates", "statement": "For every URL byte string (including invalid UTF-8), every option combination, every loaded suffix list and every behaviour of the IDNA library, Extract returns normally: no slice or index expression in it or its helpers is out of range and none of its loops runs forever.", "quantifier": "all byte strings, all URLParams, all suffix tries, all IDNA conversion functions", "why_tests_cant": "the input space is all byte strings times all suffix lists; a fuzz run samples it", "anchors": ["fasttld.go:Extract", "strings.go:fastTrim", "strings.go:lastIndexAny", "net.go:isIPv4", "net.go:isIPv6"]}
{"id": "C02", "title": "Extract loses no byte of the URL outside the host", "statement": "When Extract succeeds without punycode conversion, the whitespace-trimmed URL is exactly Scheme ++ (UserInfo ++ '@')? ++ host ++ (':' ++ Port)? ++ Path, where host is '[' ++ Domain ++ ']' for IPv6 and otherwise the host text that SubDomain/Domain/Suffix were cut from.", "quantifier": "all URLs on which Extract succeeds", "why_tests_cant": "needs every URL, not a table of them", "anchors": ["fasttld.go:Extract"]}
{"id": "C03", "title": "Host reassembly", "statement": "When Extract succeeds with HostType HostName, the host is exactly (SubDomain sep)? Domain (sep Suffix)? followed only by label separators: no host byte is dropped or attributed twice.", "quantifier": "all URLs, all suffix lists", "why_tests_cant": "depends on the interplay of host and suffix list", "anchors": ["fasttld.go:Extract"]}
{"id": "C04", "title": "RegisteredDomain is Domain.Suffix", "statement": "On success RegisteredDomain is Domain, one label separator, Suffix when Suffix is non-empty; it is empty when a HostName has no Suffix; for IP hosts it equals Domain.", "quantifier": "all URLs, all suffix lists", "why_tests_cant": "universal relation between three output fields", "anchors": ["fasttld.go:Extract"]}
{"id": "C05", "title": "Success and HostType agree", "statement": "If the error is nil then HostType is not None and Domain is not empty. If the error is non-nil then HostType is None, except that a valid bracketed IPv6 host followed by an invalid port leaves HostType IPv6.", "quantifier": "all URLs, options and suffix lists", "why_tests_cant": "must hold on every exit path", "anchors": ["fasttld.go:Extract"]}
{"id": "C06", "title": "IgnoreSubDomains changes only SubDomain", "statement": "Extract with IgnoreSubDomains=true returns the same error and the same result as with false, except that SubDomain is empty.", "quantifier": "all URLs, suffix lists, IDNA behaviours", "why_tests_cant": "relates two executions on every input", "anchors": ["fasttld.go:Extract"]}
{"id": "C07", "title": "Surrounding whitespace is irrelevant", "statement": "Adding any sequence of the library's whitespace/control code points before and after a URL does not change the result of Extract.", "quantifier": "all URLs and all whitespace strings", "why_tests_cant": "unbounded paddings, including next to invalid UTF-8", "anchors": ["fasttld.go:Extract", "strings.go:fastTrim"]}
{"id": "C08", "title": "Exact scheme grammar", "statement": "Scheme is the longest prefix of the trimmed URL of the form (letter (letter|digit|+|-|.)* ':'?)? followed by two or more slashes or backslashes, and is empty exactly if no such prefix exists.", "quantifier": "all URLs", "why_tests_cant": "infinite language", "anchors": ["strings.go:getSchemeEndIndex", "fasttld.go:Extract"]}
{"id": "C09", "title": "A scheme needs a colon", "statement": "A non-empty Scheme that contains anything other than slashes ends its name with ':' (RFC 3986).", "quantifier": "all URLs", "why_tests_cant": "infinite language", "anchors": ["strings.go:getSchemeEndIndex"]}
{"id": "C10", "title": "Exact userinfo rule", "statement": "UserInfo is everything before the last '@' that precedes the first of / \\ ? # [ ] after the scheme; if there is no such '@' it is empty and nothing is removed.", "quantifier": "all URLs", "why_tests_cant": "infinite language", "anchors": ["strings.go:indexLastByteBefore", "fasttld.go:Extract"]}
{"id": "C11", "title": "Port is a number in range", "statement": "When Extract succeeds and Port is non-empty, Port is a decimal numeral with value 0..65535; a host followed by ':' and anything else is rejected with an error.", "quantifier": "all URLs", "why_tests_cant": "infinite language", "anchors": ["fasttld.go:Extract"]}
{"id": "C12", "title": "Path is everything from the first delimiter after the authority", "statement": "On success Path is empty or begins with one of / \\ ? #, it is the rest of the URL from the first such delimiter after the host, and the host and port contain none of these delimiters.", "quantifier": "all URLs", "why_tests_cant": "infinite language", "anchors": ["fasttld.go:Extract"]}
{"id": "C13", "title": "IPv6 literal recognition is exactly the grammar", "statement": "The text between the square brackets is accepted iff it is eight 16-bit hex groups separated by ':' with at most one '::' standing for at least one group, where the last two groups may be written as a dotted IPv4 address.", "quantifier": "all byte strings", "why_tests_cant": "infinite language", "anchors": ["net.go:isIPv6", "net.go:xtoi"]}
{"id": "C14", "title": "IPv4 literal recognition is exactly dotted quad", "statement": "The IPv4 check accepts exactly four decimal octets 0..255 without leading zeros separated by any of the four label separators, followed by any number of label separators.", "quantifier": "all byte strings", "why_tests_cant": "infinite language", "anchors": ["net.go:isIPv4", "net.go:dtoi"]}
{"id": "C15", "title": "IPv4 hosts are classified as IPv4", "statement": "If the host is a dotted quad then Extract succeeds with HostType IPv4, Domain and RegisteredDomain equal to the address without trailing separators, and empty SubDomain and Suffix; and HostType IPv4 is returned for no other host.", "quantifier": "all URLs, all suffix lists", "why_tests_cant": "depends on the suffix list and the unbounded trailing separators", "anchors": ["fasttld.go:Extract", "net.go:isIPv4"]}
{"id": "C16", "title": "Brackets are only for IPv6", "statement": "Extract succeeds on an authority containing '[' or ']' only if the host is '[' ++ valid IPv6 literal ++ ']' , followed by nothing, a port or a path; then HostType is IPv6 and Domain is the literal. Every other use of brackets in the authority is an error.", "quantifier": "all URLs", "why_tests_cant": "infinite language", "anchors": ["fasttld.go:Extract"]}
{"id": "C17", "title": "Suffix follows the Public Suffix List algorithm", "statement": "For a valid hostname, Suffix is the public suffix given by the publicsuffix.org algorithm over the loaded rules (exception rules win, otherwise the longest matching rule, '*' matching one label); Domain is the label before it and SubDomain the rest. If no rule matches there is no Suffix.", "quantifier": "all rule lists, all hostnames", "why_tests_cant": "product of all rule lists with all hostnames", "anchors": ["fasttld.go:Extract", "fasttld.go:trieConstruct", "fasttld.go:nestedDict"]}
{"id": "C18", "title": "Rule order and duplicates are irrelevant", "statement": "Two suffix lists with the same set of rules give the same Extract result on every URL.", "quantifier": "all pairs of rule lists with equal sets, all URLs", "why_tests_cant": "all permutations of all lists", "anchors": ["fasttld.go:nestedDict", "fasttld.go:trieConstruct", "fasttld.go:Extract"]}
{"id": "C19", "title": "The suffix index holds exactly the rules", "statement": "After construction, a reversed label path is present iff it is a prefix of some rule, and it is marked as a complete suffix iff it is itself a rule or is a top-level label with a wildcard rule below it.", "quantifier": "all rule lists", "why_tests_cant": "all lists, all insertion orders", "anchors": ["fasttld.go:nestedDict", "fasttld.go:trieConstruct"]}
{"id": "C20", "title": "Domain is a single label", "statement": "On success with HostType HostName, Domain is non-empty and contains none of the four label separators.", "quantifier": "all URLs, suffix lists, IDNA behaviours", "why_tests_cant": "infinite inputs", "anchors": ["fasttld.go:Extract", "strings.go:lastIndexAny"]}
{"id": "C21", "title": "Invalid hostname characters are rejected", "statement": "On success with HostType HostName, SubDomain and Domain contain none of the characters in the library's invalid hostname character list.", "quantifier": "all URLs, suffix lists", "why_tests_cant": "infinite inputs", "anchors": ["strings.go:hasInvalidChars", "fasttld.go:Extract"]}
{"id": "C22", "title": "Empty labels are rejected", "statement": "On success with HostType HostName, SubDomain and Domain contain no empty label: the host does not begin with a label separator and has no two adjacent separators before its last label.", "quantifier": "all URLs, suffix lists", "why_tests_cant": "infinite inputs", "anchors": ["strings.go:hasInvalidChars", "fasttld.go:Extract"]}
{"id": "C23", "title": "The four label separators are interchangeable", "statement": "If Extract succeeds on a host name, then replacing any of its label separators by others of the four succeeds too and yields the same labels in SubDomain, Domain and Suffix.", "quantifier": "all hosts, all separator substitutions, all suffix lists", "why_tests_cant": "2^n substitutions of unbounded hosts", "anchors": ["fasttld.go:Extract", "strings.go:lastIndexAny", "strings.go:sepSize"]}
{"id": "C24", "title": "Percent-encoded suffix labels match", "statement": "A rule label is matched by a host label iff the percent-decoded host label equals it, and Suffix reports the undecoded text; a malformed percent escape in the host is an error.", "quantifier": "all hosts, all suffix lists", "why_tests_cant": "infinite inputs", "anchors": ["fasttld.go:Extract"]}
{"id": "C25", "title": "Unknown TLD", "statement": "If no rule begins with the host's last label (and there is no bare '*' rule) then Suffix and RegisteredDomain are empty, Domain is the last non-empty label and SubDomain everything before it.", "quantifier": "all rule lists and hosts", "why_tests_cant": "product of rule lists and hosts", "anchors": ["fasttld.go:Extract"]}
{"id": "C26", "title": "Adding subdomains does not move the registrable domain", "statement": "If Extract succeeds on host h as HostName, then on x.h, for any valid label x (and x.h not IPv4), it succeeds with the same Domain, Suffix and RegisteredDomain, and SubDomain extended by x.", "quantifier": "all hosts, labels, suffix lists", "why_tests_cant": "relates executions on all inputs", "anchors": ["fasttld.go:Extract"]}
{"id": "C27", "title": "Re-extraction of RegisteredDomain is stable", "statement": "If Extract succeeds with a non-empty Suffix, then extracting RegisteredDomain gives the same Domain, Suffix, RegisteredDomain and an empty SubDomain.", "quantifier": "all URLs, suffix lists", "why_tests_cant": "relates two executions", "anchors": ["fasttld.go:Extract"]}
{"id": "C28", "title": "Userinfo, scheme, port and path do not influence the host", "statement": "For two URLs with the same host text, whatever their scheme, userinfo, port and path, Extract yields the same SubDomain, Domain, Suffix, RegisteredDomain and HostType when both succeed, and a host-level failure in one is the same failure in the other.", "quantifier": "all URL parts", "why_tests_cant": "unbounded product of parts", "anchors": ["fasttld.go:Extract"]}
{"id": "C29", "title": "Suffix list parsing is exact", "statement": "Every line that is neither blank nor a // comment contributes, in order, its ASCII form and, if different, itself; lines whose ASCII conversion fails contribute nothing; a line is private iff a line equal to the BEGIN PRIVATE marker occurred before it; and allSuffixes = publicSuffixes ++ privateSuffixes.", "quantifier": "all file contents, all IDNA behaviours", "why_tests_cant": "all files", "anchors": ["psl.go:processLine", "psl.go:getPublicSuffixList"]}
{"id": "C30", "title": "Comments, blank lines, indentation and CRLF are irrelevant", "statement": "Inserting comment or blank lines anywhere, padding lines with white space, or using CRLF line ends does not change the parsed suffix lists.", "quantifier": "all files and all such edits", "why_tests_cant": "all files", "anchors": ["psl.go:processLine"]}
{"id": "C31", "title": "IncludePrivateSuffix=false hides the private section", "statement": "An extractor built without private suffixes gives identical results whatever the private section of the list contains.", "quantifier": "all lists, all private sections, all URLs", "why_tests_cant": "all lists", "anchors": ["psl.go:processLine", "fasttld.go:trieConstruct"]}
{"id": "C32", "title": "Character sets are exact", "statement": "An ASCII set built from a string contains exactly the ASCII characters of that string, and no byte >= 128.", "quantifier": "all strings, all bytes", "why_tests_cant": "bit-level claim over all strings", "anchors": ["strings.go:makeASCIISet", "strings.go:contains"]}
{"id": "C33", "title": "Trimming is exact", "statement": "fastTrim removes exactly the maximal runs of trim characters at the requested ends of any byte string and nothing else.", "quantifier": "all byte strings, trim sets and modes", "why_tests_cant": "invalid UTF-8 decodes differently forwards and backwards; all strings", "anchors": ["strings.go:fastTrim"]}
{"id": "C34", "title": "Separator search is exact on arbitrary bytes", "statement": "lastIndexAny returns the last byte offset at which the UTF-8 encoding of a set member occurs, or -1 if there is none, even in invalid UTF-8.", "quantifier": "all byte strings, all rune sets without U+FFFD", "why_tests_cant": "needs UTF-8 self-synchronisation on all strings", "anchors": ["strings.go:lastIndexAny"]}
{"id": "C35", "title": "reverse reverses", "statement": "reverse turns any slice into its mirror image, so applying it twice is the identity.", "quantifier": "all slices", "why_tests_cant": "all lengths", "anchors": ["strings.go:reverse"]}
{"id": "C36", "title": "New always yields a working extractor", "statement": "For every state of file system, clock and network, New returns a nil error and an extractor whose rules come from the custom file, the default cache file, or the built-in list, with the requested private-suffix setting.", "quantifier": "all environments", "why_tests_cant": "environment space: missing/unreadable files, directories, failed downloads", "anchors": ["fasttld.go:New", "psl.go:newHardcodedPSL", "psl.go:checkCacheFile"]}
{"id": "C37", "title": "A valid custom list is used as is", "statement": "If CacheFilePath names a readable regular file with the four section markers, New uses exactly that file, performs no download and writes no file.", "quantifier": "all environments and file contents", "why_tests_cant": "all environments", "anchors": ["fasttld.go:New", "psl.go:checkCacheFile"]}
{"id": "C38", "title": "Update refuses custom lists without side effects", "statement": "Update on an extractor whose list is not the default cache file returns an error and changes neither the extractor nor any file.", "quantifier": "all extractors and environments", "why_tests_cant": "all environments", "anchors": ["psl.go:Update"]}
{"id": "C39", "title": "A failed Update leaves the extractor untouched", "statement": "If Update returns an error, the extractor answers every later Extract as before.", "quantifier": "all environments and failure points", "why_tests_cant": "all failure points", "anchors": ["psl.go:Update"]}
{"id": "C40", "title": "A successful Update installs the downloaded list", "statement": "If Update succeeds, the cache file equals the body of the first source whose download succeeded and is valid, and the extractor's rules are those of that body.", "quantifier": "all environments, old file contents and bodies", "why_tests_cant": "depends on the old content of the file", "anchors": ["psl.go:Update", "psl.go:update"]}
{"id": "C41", "title": "Only validated downloads are written, in source order", "statement": "update writes only bodies that contain all four section markers, tries the sources in order, stops at the first success, and fails iff every source fails.", "quantifier": "all source outcomes", "why_tests_cant": "all combinations of failures, unbounded number of sources", "anchors": ["psl.go:update", "psl.go:validPSLDelimiters"]}
{"id": "C42", "title": "Three-day freshness rule", "statement": "New without a usable custom path contacts the network iff the default cache file is invalid or was modified more than 72 hours ago.", "quantifier": "all clocks and file states", "why_tests_cant": "all times", "anchors": ["fasttld.go:New", "psl.go:fileLastModifiedHours"]}
{"id": "C43", "title": "Crash safety of the cache", "statement": "If the process dies at any point while Update writes the cache, the next New works and uses either the complete old list, the complete new list, or the built-in list.", "quantifier": "all crash points, old and new contents", "why_tests_cant": "all crash points", "anchors": ["psl.go:update", "psl.go:Update", "fasttld.go:New"]}
{"id": "C44", "title": "Invariants over every history of New and Update", "statement": "Along every sequence of New and Update calls in changing environments, the private-suffix setting never changes, the cache path only ever is the given one, the default one or empty, and the rules are always those of a file content that was on disk during a call or the built-in list.", "quantifier": "all call histories", "why_tests_cant": "unbounded histories", "anchors": ["fasttld.go:New", "psl.go:Update"]}
{"id": "C45", "title": "Extract concurrent with Update sees one list", "statement": "An Extract that overlaps Updates returns the result of the list installed before or after some Update, never a mixture.", "quantifier": "all interleavings", "why_tests_cant": "all schedules", "anchors": ["fasttld.go:Extract", "psl.go:Update"]}
{"id": "C46", "title": "PrintRes shows every component", "statement": "PrintRes prints, in a fixed order, one line per component with its label and exact value, highlights exactly the labels of non-empty components and names the host type.", "quantifier": "all results", "why_tests_cant": "all results", "anchors": ["print.go:PrintRes"]}
{"id": "C47", "title": "Host matching is case-insensitive", "statement": "Changing the case of ASCII letters in a host does not change which suffix is recognised (host names are case-insensitive, RFC 4343).", "quantifier": "all hosts and rule lists", "why_tests_cant": "all hosts", "anchors": ["fasttld.go:Extract"]}
{"id": "C48", "title": "The character check is exact", "statement": "hasInvalidChars rejects a byte string (valid UTF-8 or not) iff it has a hyphen at either end, begins with a label separator, has two label separators in a row, or contains an invalid character; where, as coded, U+FF61 does not count as a separator and U+0378, U+206B, U+2A74 do not count as invalid.", "quantifier": "all byte strings", "why_tests_cant": "infinite domain; the exceptions come from truncating code points to bytes", "anchors": ["strings.go:hasInvalidChars"]}
{"id": "C49", "title": "The command line shows what Extract returned", "statement": "Whatever the state of file system and network, 'fasttld extract' does not exit early or panic; it prints an error line iff Extract returned an error, and then PrintRes of the argument as given and of the result.", "quantifier": "all environments, flags and arguments", "why_tests_cant": "all environments", "anchors": ["cmd/fasttld/extract.go:extractCmd", "fasttld.go:New", "print.go:PrintRes"]}
{"id": "C50", "title": "The generated built-in list is the downloaded list", "statement": "The Go constant declared by the file that gen.go writes is exactly the downloaded text iff that text contains no back quote and no carriage return; with CRLF line ends and no back quotes it still yields the same rules.", "quantifier": "all downloaded texts", "why_tests_cant": "all texts", "anchors": ["data/gen.go:pslTemplate"]}
{"id": "C51", "title": "The pointer trie built in place is the trie of the list", "statement": "nestedDict/trieConstruct, run on real nodes with pointers in any memory, with any allocation order and any order of Scan, ends without nil dereference and leaves a structure whose paths are exactly the suffixes of the list read backwards and their beginnings, whose marks are exactly the rules and the top-level parents of wildcards, in which no node is shared, and without touching any other node; Extract reading through the pointers returns what it returns for the abstract trie and writes nothing.", "quantifier": "all rule lists, all memories, all allocators and hash map orders", "why_tests_cant": "aliasing depends on every insertion order and allocation; lists are unbounded", "anchors": ["fasttld.go:nestedDict", "fasttld.go:trieConstruct", "fasttld.go:Extract"]}
{"id": "C52", "title": "Extract is exactly its specification", "statement": "For every URL, option setting, IDNA library and list text, Extract returns a result and an error iff they are the ones that an index-free, trie-free specification assigns (where scheme, userinfo, host, port and path are; which bracket, port, escape, IDNA, separator, character and empty-domain errors apply and what the result then holds; which labels are suffix, domain and sub-domain); the specification assigns exactly one of them to every URL and depends on the rules only as a set.", "quantifier": "all URLs, all options, all lists, all IDNA behaviours", "why_tests_cant": "covers every byte string, including every error path and partially filled result", "anchors": ["fasttld.go:Extract", "psl.go:getPublicSuffixList", "fasttld.go:trieConstruct"]}
{"id": "C53", "title": "Only the rules under the last label count", "statement": "For a host name with last label l, the result of Extract depends only on the rules whose top-level label is l or *, and, if there are rules with top-level label *, on those with top-level label !l: two lists that agree on these give the same result and error. So, in a list without rules under *, a defective entry under one top-level label cannot change the result for names under another, and the conditions on the list in C03, C21 and C22 are needed only for the last label of the host itself.", "quantifier": "all pairs of lists, all URLs, all options", "why_tests_cant": "pairs of unbounded lists and unbounded names", "anchors": ["fasttld.go:Extract", "fasttld.go:trieConstruct"]}
{"id": "C54", "title": "The built-in list", "statement": "The built-in list of fallback.go has all four section delimiters and 6864 rules (9715 with the private section). No rule has the top-level label *, and every top-level label other than za is itself a rule or the parent of a wildcard, so for every host name whose last label is not za the parts of the result can be put together to the host again. If rules are converted to ASCII label by label, then for every host without escapes that has no label beginning with ! and does not end in one of 12 names listed in the specification (358 with the private section), Suffix is exactly the public suffix that the algorithm of publicsuffix.org gives for the built-in list. The exceptions are real: www.example.co.za gets Suffix co, and example.hordaland.no, whose public suffix is no, gets Suffix hordaland.no.", "quantifier": "all host names, all options but ignoreSubDomains, both settings of IncludePrivateSuffix, every line of the built-in list", "why_tests_cant": "unbounded names against a list of 15693 lines; tests look up a few names", "anchors": ["fallback.go:hardcodedPSL", "fasttld.go:Extract", "psl.go:processLine"]}
{"id": "C55", "title": "Exactly which lists are handled as the Public Suffix List algorithm says", "statement": "Call a list gapless if * alone is not a rule; if at every place in the tree of rules that can be reached without passing a wildcard, and below which there are rules, there is a rule or a wildcard rule one label longer; and if below a label that a wildcard stands for there are no rules, unless that label is an exception, and then no exceptions. For every well-formed list (labels that can occur in host names, * and ! only in front, every ! rule next to a * rule) and an IDNA library that accepts the dotted names made of labels of the rules and of labels of letters a, the following are equivalent: Extract gives the public suffix of the algorithm of publicsuffix.org for all dotted names that it accepts; the list is gapless. So the condition on the list that C17 needs is not an artefact of the proof: every well-formed list without it has a name with a wrong result.", "quantifier": "all well-formed lists of rules, all dotted names of labels that pass the character check without escapes, default options", "why_tests_cant": "an equivalence between a property of unbounded lists and the behaviour on all names", "anchors": ["fasttld.go:Extract", "fasttld.go:trieConstruct", "fasttld.go:nestedDict"]}
{"id": "C56", "title": "Exactly which names are not handled as the Public Suffix List algorithm says", "statement": "For every well-formed list without the bare rule *, and every accepted URL whose host is a name with labels that can occur in host names, the parts of the result are those of the algorithm of publicsuffix.org unless some rule matches and one of the following holds, and in these cases they are not: (1) the top-level label is not a rule and has no wildcard below it; (2) the rules can be followed along the name to a place that is not a rule and has no wildcard below it, and no rule goes on with the next label; (3) the rules can be followed to a wildcard without an exception for the next label, and the public suffix does not end with that label; (4) the rules can be followed to a wildcard with an exception for the next label, and the public suffix does not end before that label. So the names with wrong results are described exactly, by the rules alone.", "quantifier": "all well-formed lists of rules, all URLs with a host name of labels that pass the character check without escapes, all options but ignoreSubDomains", "why_tests_cant": "an equivalence for all lists and all names; a test shows one name with a right or a wrong result", "anchors": ["fasttld.go:Extract", "fasttld.go:trieConstruct", "fasttld.go:nestedDict"]}
{"id": "C57", "title": "Exactly which names are not handled as the algorithm says with the built-in list", "statement": "With the list that is built into the library and a conversion to ASCII that works label by label, keeps the labels of the list apart and gives labels that can occur in host names: the list is well formed, and for every accepted URL whose host is a name with labels that can occur in host names the result is that of the algorithm of publicsuffix.org except for the following names. Without the private section: names with the top-level label za that some rule matches; and names that end in one of eleven names under no (akershus.no, buskerud.no, hedmark.no, hordaland.no, more-og-romsdal.no, møre-og-romsdal.no, nordland.no, ostfold.no, telemark.no, vestfold.no, østfold.no, as written or converted), followed by a label with which no rule goes on there. With the private section: the same for the 353 names that have rules below them and are neither rules nor parents of wildcards, when some rule matches and no wildcard comes before; and names that end in the parent of one of five wildcards (futurecms.at, customer-oci.com, wc.psl.hrsn.dev, snowflake.app, firenet.ch) where the public suffix is not the one that the wildcard and its exceptions give. No entry is there in vain: each of them has names below it with a wrong result.", "quantifier": "the built-in list with and without the private section, all URLs with a host name of labels that pass the character check without escapes, all options but ignoreSubDomains, all conversions to ASCII as described", "why_tests_cant": "an exact description of all names with wrong results; tests can only confirm single names", "anchors": ["fallback.go:hardcodedPSL", "fasttld.go:Extract", "fasttld.go:trieConstruct", "psl.go:getPublicSuffixList"]}
{"id": "C58", "title": "Names in Unicode and in Punycode are divided in the same way", "statement": "Assume that idna.ToASCII converts a rule label by label and a label that is not in ASCII as RFC 3492 says. For every list whose rules are in Unicode (UTF-8, no label with the prefix xn--) and whose exceptions are in ASCII, and every host whose labels are in Unicode and can occur in host names: the host and the same host with all its labels in Punycode are both accepted as host names or both not, whatever else is in the two URLs, and if they are then SubDomain, Domain, Suffix and RegisteredDomain of the one are those of the other in Punycode. So ConvertURLToPunyCode changes nothing but the spelling of the parts, if its conversion succeeds and is the same. The built-in list is such a list, and for it this conversion meets the conditions of C54 and C57. The conversion of RFC 3492 can be undone for all texts, so different labels remain different.", "quantifier": "all lists of such rules and the built-in list with and without the private section, all pairs of URLs with such hosts, all options (ignoreSubDomains the same in both)", "why_tests_cant": "for all names and all lists; the tests compare a few names in both spellings, with one list", "anchors": ["psl.go:processLine", "strings.go:formatAsPunycode", "fasttld.go:Extract", "fallback.go:hardcodedPSL"]}
{"id": "C59", "title": "Processes that share the cache file do not disturb each other while the list stays the same", "statement": "Any number of processes run New or Update with the same default cache file, each call to the operating system at any time, writes in pieces, and any of them may die at any time; the clock, the network, permissions, errors and all other files may change at any time. If every list that a source offers is the same one, it ends with the line of the last section marker, and the default cache file is at first absent, not a file, or holds a beginning of that list, then it does so at every moment, its contents only get longer, every New that returns has the rules of that list, of the built-in list, or of a file of its own that the caller named, without error, and every Update that returns has the rules of that list, or an error and the rules it had before. If the list changes between the downloads of two processes, this is false, even without crashes.", "quantifier": "all numbers of processes, all interleavings of their calls and parts of writes, all deaths, all changes of the rest of the world", "why_tests_cant": "the interleavings of processes cannot be enumerated, and tests with several processes do not control them", "anchors": ["psl.go:Update", "psl.go:update", "psl.go:checkCacheFile", "fasttld.go:New", "fasttld.go:trieConstruct"]}
{"id": "C60", "title": "What New and Update do, exactly", "statement": "In every file system, with every clock, network and pattern of errors that stay the same during the call, New and Update have exactly one possible outcome, and it is this. Update refuses, without asking or changing anything, unless the path of the extractor is that of the default cache file; fails without asking the network if that file can neither be opened nor created for writing; otherwise asks the sources in order, writes each complete list with the section markers over the beginning of the file as far as writing works, and stops at the first list written in full; then uses the rules of the whole file, if it can be read; in every other case returns an error and leaves the extractor as it was. New uses the file with the given path, exactly as written, if the path without white space around it leads to a readable regular file with the section markers (and the built-in list if the path as written cannot be read); otherwise the built-in list if the temporary folder cannot be opened; otherwise the default cache file if it is usable and not older than 72 hours; otherwise it does what Update does, with the built-in list in place of an error. No other file is changed, and no other address is asked.", "quantifier": "all worlds (files with contents, times and permissions, paths, clock, network, errors while seeking and writing), all extractors and parameters", "why_tests_cant": "the outcome for all states of the file system, network and errors at once; the tests use a few states and mock the network", "anchors": ["psl.go:Update", "psl.go:update", "psl.go:checkCacheFile", "psl.go:downloadFile", "fasttld.go:New", "fasttld.go:trieConstruct"]}
{"id": "C61", "title": "What holds for all URLs with the built-in list", "statement": "With the built-in list, with or without the private section, and a conversion to ASCII that works label by label: no top-level label of a rule is a number, so the whole of every IPv4 address is returned as Domain and RegisteredDomain, whatever separators it is written with; SubDomain and Domain hold no invalid characters other than the three that are missed, for any accepted URL; and for every accepted host whose last label, decoded, is not `za`, no label is empty (where U+FF61 does not occur in the host), the host with a further proper label before it is accepted too, with the same Domain, Suffix and RegisteredDomain (unless it is an IPv4 address), and every URL whose host is RegisteredDomain, if Suffix is not empty and Domain does not begin with `-`, gives the same Domain, Suffix and RegisteredDomain and no SubDomain. Under `za` the last three are false.", "quantifier": "all URLs, all options, both versions of the built-in list, all IDNA libraries that convert rules label by label", "why_tests_cant": "all hosts with all 9715 rules; the tests try a few hosts", "anchors": ["fallback.go", "fasttld.go:Extract", "fasttld.go:nestedDict"]}
{"id": "C62", "title": "How often Extract accesses the trie", "statement": "Extract stores nothing in the trie, whatever it finds there. However many other Extracts and Updates run at the same time, a call of Extract makes no access to the trie at all (an address in brackets, or an error before the host name is looked up), or one access to find it and at most four for each label of the host, for no more labels than the longest rule of the lists in use has (for one, if there are no rules). The bound does not depend on the number of rules and is attained. With the built-in list, whose rules have at most four labels (seven with the private section), no URL needs more than 17 accesses (29 with the private section).", "quantifier": "all URLs, options, IDNA libraries, lists, jobs and interleavings", "why_tests_cant": "a bound for all URLs and interleavings cannot be measured; the benchmarks of the repository time a few URLs", "anchors": ["fasttld.go:Extract", "psl.go:Update"]}
{"id": "C63", "title": "What is in the result when there is an error", "statement": "When Extract returns an error, Scheme and UserInfo are those of the URL. Port and Path are both empty after an error in the square brackets or in the port, and those of the URL after any other error. The parts of the host and HostType are empty, with two exceptions: if an IPv6 address in brackets is followed by an invalid port, the address is there as Domain and RegisteredDomain with HostType IPv6; if the domain is missing, SubDomain, Suffix and RegisteredDomain are those that go with the empty domain. In particular Domain is never set for a host name.", "quantifier": "all URLs, options, IDNA libraries and lists", "why_tests_cant": "the README says that partially extracted parts can be retrieved, without saying which; the tests compare results for a few invalid URLs", "anchors": ["fasttld.go:Extract", "README.md:Parsing errors"]}
{"id": "C64", "title": "IncludePrivateSuffix only makes suffixes longer", "statement": "With the built-in list, the private section changes a result in one way only: for every URL whose host is a host name without the private section, the result with it is the same, or its Suffix ends in the former RegisteredDomain (so Suffix is longer by one label or more and the former Domain is part of it). It is rejected with an error only if the host has an empty label or a label that ends in '-', or if all its labels are matched by the rules. Addresses have the same parts with and without the private section. The same holds for any two lists of which the longer adds no wildcard beside an older rule, no exception from an older wildcard, and no rule under a top-level label that was not a rule or the parent of a wildcard; each of these conditions is needed.", "quantifier": "all URLs, options, IDNA libraries; all pairs of lists in harmony; the built-in list with a conversion to ASCII label by label", "why_tests_cant": "the tests compare two or three hosts with and without private suffixes; the claim is about all URLs and about the relation of 2851 private rules to 6864 public ones", "anchors": ["fasttld.go:Extract", "psl.go:processLine", "fallback.go", "README.md:Private domains"]}
{"id": "C65", "title": "What the error texts say", "statement": "Different errors of Extract have different texts, and a text has no control characters. The text for a malformed escape shows, as a Go string literal, the first malformed escape of the host. The output of 'fasttld extract' determines argument, result and error, as long as no value contains a line break and texts of the IDNA library are single lines that begin with 'idna: '.", "quantifier": "all errors, hosts, results; all tables of printable characters in which control characters are not printable", "why_tests_cant": "all escapes and results", "anchors": ["fasttld.go:Extract", "cmd/fasttld/extract.go:extractCmd"]}
{"id": "C66", "title": "gen.go replaces the built-in list only after a complete download", "statement": "Unless the answer to the download was read to its end and the file could be created, gen.go fails and fallback.go stays as it was. Otherwise it exits with status 0 and fallback.go is a beginning of the generated text, all of it if no write failed; if more than the last line break is missing, the file does not declare the constant (for lists without back quotes). The HTTP status and the contents are not checked, and write errors are not reported.", "quantifier": "all answers of the operating system and the network", "why_tests_cant": "all failures", "anchors": ["data/gen.go:main"]}
{"id": "C67", "title": "Only what the list says along the name counts", "statement": "While Extract follows the labels of a host from the right, only this counts at each label: whether there is a wildcard, and then whether there is an exception for the label as written; otherwise whether a rule goes on with the label, and then whether a suffix can end there and whether there are longer rules. Two lists that agree on this for every label that is looked at give the same result and error. So rules that are added to a list change nothing for a URL if each of them leaves the host name at a place below which there were rules already, with a label that is not that of the name, nor *, nor the exception for the label of the name.", "quantifier": "all pairs of lists, all URLs and parameters, all IDNA functions", "why_tests_cant": "all lists", "anchors": ["fasttld.go:Extract", "fasttld.go:trieConstruct"]}
{"id": "C68", "title": "The results in README.md", "statement": "With the built-in list, the ten examples in README.md have the results shown there (the last one with the error for invalid characters). For URLs whose host ends in com, all rules without the private section other than com can be left out.", "quantifier": "all functions for the conversion to ASCII that work label by label, and all that accept the hosts of the examples; for the second part, all URLs and parameters", "why_tests_cant": "all IDNA functions; all URLs", "anchors": ["README.md", "examples/demo.go:main", "fallback.go:hardcodedPSL"]}
{"id": "C69", "title": "It is enough that the pointer to the list synchronises", "statement": "Suppose an Extract that loads the pointer f.tldTrie stored by an Update also sees what the Update stored before (release and acquire), while otherwise any value may be seen that is not older than what the goroutine knows of. Then, with any number of concurrent Extracts and Updates, every Extract returns the result for one list, the first one or that of an Update that is done, and no goroutine follows a nil pointer or is blocked. If moreover loads of the pointer return the latest one, every execution is one with sequential consistency, and the list is one that was installed during the call.", "quantifier": "all lists, URLs, numbers of goroutines, interleavings, choices of values that loads return, and allocations", "why_tests_cant": "all interleavings and all choices of old values", "anchors": ["fasttld.go:Extract", "psl.go:Update", "fasttld.go:trieConstruct"]}
{"id": "C70", "title": "The work of Extract is linear in the length of the URL", "statement": "Whatever the list holds and whatever the URL is, Extract without ConvertURLToPunyCode makes at most 48 steps for each byte of the URL and 13 more. A step is an iteration of a loop, a byte gone through by a function of the standard library or copied, or a lookup in a map with one step for each byte of the key. With ConvertURLToPunyCode at most 33 for each byte of the URL, 15 for each byte of the longer of the URL and the text from idna, and 13 more. No URL makes the suffix loop, the brackets, the IP address checks or the trimming go over the text once for each label or character.", "quantifier": "all lists, URLs, options and IDNA libraries", "why_tests_cant": "a bound for all URLs, and benchmarks try a few", "anchors": ["fasttld.go:Extract", "strings.go:lastIndexAny", "strings.go:fastTrim", "net.go:isIPv4", "net.go:isIPv6"]}
{"id": "C71", "title": "Reading a list is linear in its length, and so is its memory", "statement": "If idna.ToASCII writes at most c bytes for each byte, parsing a list of n bytes and building the trie takes at most (9c+27)(n+1) steps, counted as in C70. The trie has exactly one node for every different sequence of labels in which some rule ends, and the root; so the order of the rules and repeated rules do not matter, and there are at most 1+(c+2)(n+1) nodes.", "quantifier": "all list texts, options, and IDNA libraries with the bound c", "why_tests_cant": "a bound for all texts, and an exact count for all lists", "anchors": ["psl.go:processLine", "psl.go:getPublicSuffixList", "fasttld.go:nestedDict", "fasttld.go:trieConstruct"]}
{"id": "C72", "title": "What New, Update and Extract log", "statement": "For every file system, clock, network and IDNA library: the lines that New and Update log are determined by their calls and the texts of the errors. A download that fails is logged with its text or its status code, a failed seek or write with its text, a written list with 'Public Suffix List updated.', a list that cannot be read with its text twice, and an entry without an ASCII form with '124' where the code says '|'. If New uses the built-in list without being asked to, it says so after the text of the error of the last call, or after '<nil>' if Update was tried. Nothing else is logged, and New never returns an error. Extract logs at most one line, and only if it returns an error: the text of an error of the IDNA library up to the first 'idna: invalid label', so the label itself is not logged.", "quantifier": "all answers of the system with all error texts, all lists, options, URLs and IDNA libraries", "why_tests_cant": "the repository tests no log output, and the errors of the system cannot be provoked one by one", "anchors": ["psl.go:processLine", "psl.go:downloadFile", "psl.go:update", "psl.go:getPublicSuffixList", "fasttld.go:newHardcodedPSL", "fasttld.go:New", "fasttld.go:Update", "strings.go:formatAsPunycode"]}
{"id": "C73", "title": "The log says what failed", "statement": "Whatever call of New fails (opening the folder or the cache file, a download, a seek, a write, reading the list), the text of its error is in a line of the log.", "quantifier": "all answers of the system with all error texts, all options and lists", "why_tests_cant": "the errors of the system cannot be provoked one by one, and log output is not tested", "anchors": ["fasttld.go:New", "fasttld.go:newHardcodedPSL", "fasttld.go:Update", "psl.go:update"]}
{"id": "C74", "title": "Everything that is opened is closed once, and not used after", "statement": "Whatever fails, New and Update close the folder, the cache file and the body of every response exactly once, before they return, and use the file only while it is open. At no time are two folders, two files or two responses open.", "quantifier": "all answers of the system", "why_tests_cant": "a leak shows only if many calls fail, and no test provokes the failures", "anchors": ["fasttld.go:New", "fasttld.go:Update", "psl.go:downloadFile"]}
{"id": "C75", "title": "URIs of RFC 3986 are cut up as the grammar says", "statement": "For every URI with an authority that the grammar of RFC 3986 generates (any scheme, userinfo, host, port, path, query, fragment), unless the authority is empty and a path follows: Scheme is the scheme with '://', UserInfo the userinfo, and if the host is a registered name or an IPv4 address and the port, if there is one, is not empty and at most 65535, then Port is the port, Path is path, query and fragment, and all else, also the error, is what Extract says about the host alone. An IPv6 address is accepted as Domain. A host of a future version is rejected as invalid IPv6, an empty port or one above 65535 as invalid port.", "quantifier": "all URIs of the grammar with an authority; all rule lists, options and IDNA functions", "why_tests_cant": "the grammar generates infinitely many URIs; the tests have about a hundred", "anchors": ["fasttld.go:Extract", "strings.go:getSchemeEndIndex", "net.go:isIPv6"]}
{"id": "C76", "title": "Extract and browsers agree on the host", "statement": "If Extract accepts a URL that the URL Standard of the WHATWG takes for one with the scheme ftp, http, https, ws or wss, the host it judges is, as it stands in the URL, the host of the URL Standard: whatever the URL has in the way of backslashes, tabs, newlines, at-signs, colons and brackets. The only exception are URLs that consist of the name of the scheme, a colon, a port and perhaps a path (http:80): there Extract takes the name of the scheme for the host and the Standard the port. Provided that both remove the same white space at the ends, no rule has a tab or newline, and (with punycode conversion) the IDNA library rejects tabs and newlines.", "quantifier": "all URLs, rule lists, options and IDNA functions as described", "why_tests_cant": "differences between URL parsers are found with hostile URLs; tests have a few of them", "anchors": ["fasttld.go:Extract", "strings.go:getSchemeEndIndex", "strings.go:indexAnyASCII", "strings.go:indexLastByteBefore"]}
{"id": "C77", "title": "No character is cut in two", "statement": "If the URL is valid UTF-8 (and, with punycode conversion, what the IDNA library returns is), then so is every text of the result, whether there is an error or not.", "quantifier": "all URLs, rule lists, options and IDNA functions", "why_tests_cant": "the code cuts at byte offsets, with separators of one and three bytes; a wrong offset shows only with particular neighbours", "anchors": ["fasttld.go:Extract", "strings.go:indexLastByteBefore", "strings.go:sepSize"]}
{"id": "C78", "title": "The model says what the text says", "statement": "Read token by token and run by the rules of the language, the functions of strings.go and net.go behind Extract, and Extract itself, return the values that the model's functions return, and panic where these do: for an int of any size from 32 bits on, with arithmetic that wraps around, and for all strings that leave room for four more bytes in an int (for Extract also the names made by the IDNA library). So the results do not depend on the size of int.", "quantifier": "all sizes of int from 32 bits, strings, sets of characters, rule lists, URLs, options, IDNA functions", "why_tests_cant": "a test compares a few results; it cannot show that a model and a program agree on all inputs and all sizes of int", "anchors": ["fasttld.go:Extract", "strings.go:getSchemeEndIndex", "strings.go:indexAnyASCII", "strings.go:hasInvalidChars", "strings.go:lastIndexAny", "strings.go:sepSize", "strings.go:formatAsPunycode", "strings.go:indexLastByteBefore", "strings.go:fastTrim", "net.go:dtoi", "net.go:xtoi", "net.go:isIPv4", "net.go:isIPv6"]}
{"id": "C79", "title": "The text is that of the files", "statement": "Split into tokens by the lexical rules of Go, strings.go, net.go, fasttld.go, psl.go and print.go have exactly the listed declarations. The functions that C78 runs, and the constants and variables that they use, are among them with exactly these tokens. No statement in these files assigns a variable of the package that holds a set of characters, takes its address, or calls a method of it other than contains and Exists; and there is no init function.", "quantifier": "all bytes of the five files", "why_tests_cant": "tests exercise the compiled program; that a model has the text of the program is not a question about its behaviour", "anchors": ["strings.go", "net.go", "fasttld.go", "psl.go", "print.go"]}
{"id": "C80", "title": "Reading a list, by the text", "statement": "Read token by token and run by the rules of the language, the functions of psl.go that read a list (processLine, getPublicSuffixList, getHardcodedPublicSuffixList, validPSLDelimiters) return for every text, every IDNA function and every file system what the model's functions return; if the file cannot be read, getPublicSuffixList returns three empty lists and the error.", "quantifier": "all lines, list texts, results of reading a file, IDNA functions, sizes of int from 32 bits", "why_tests_cant": "a test reads a few lists; it cannot show that a model and a program agree on all of them", "anchors": ["psl.go:processLine", "psl.go:getPublicSuffixList", "psl.go:getHardcodedPublicSuffixList", "psl.go:validPSLDelimiters"]}
{"id": "C81", "title": "Building the trie, by the text", "statement": "Read token by token and run by the rules of the language with memory, reverse, nestedDict and trieConstruct make exactly the accesses to memory that the model's functions make, in the same order, for every list text, every choice of addresses for new nodes and every order in which Scan visits the entries. So trieConstruct ends without a panic (no nil pointer is followed, no index is out of range) and returns a pointer to the structure for the rules of the text, shared with nothing, and no error; nothing that was in memory before changes. If the file cannot be read it returns one empty node and the error.", "quantifier": "all list texts, files, IDNA functions, memories, allocators, orders of Scan, sizes of int from 32 bits", "why_tests_cant": "a test builds a few tries with one allocator and one hash function; it cannot show that no other list, memory or order of the entries gives another structure", "anchors": ["strings.go:reverse", "fasttld.go:nestedDict", "fasttld.go:trieConstruct"]}
{"id": "C82", "title": "Extract on the trie in memory, and goroutines, by the text", "statement": "Read token by token and run by the rules of the language with memory, Extract makes exactly the accesses to memory that the model's function makes, in the same order: it loads f.tldTrie at most once, reads nodes, and writes nothing. Where f.tldTrie points to the structure for a list of rules, the text ends without a panic with the results for that list, the text of the error included, and leaves memory as it was. If any number of goroutines run the text of Extract, and of Update from the point where the new list is in the file, on one extractor, then in every interleaving of their accesses: f.tldTrie always points to the complete structure for the first list or for that of an Update that is done; an Extract returns the results for the list that was there at one moment while it ran; every goroutine that is not done can make its next access, and none panics.", "quantifier": "all URLs and options, lists, files, IDNA functions, memories, allocators, orders of Scan, numbers of goroutines, interleavings, sizes of int from 32 bits", "why_tests_cant": "a test sees a few interleavings, chosen by the scheduler; it cannot show that no other one mixes two lists or follows a nil pointer", "anchors": ["fasttld.go:Extract", "fasttld.go:trieConstruct", "psl.go:Update"]}
{"id": "C83", "title": "New and Update, by the text", "statement": "Read token by token and run by the rules of the language with memory, calls to the operating system, logging and defer, New, Update and the functions of psl.go that they call do what the model's functions do: for every sequence of answers of the operating system they make the same calls with the same arguments in the same order, log the same lines, close the same files, and return the same error; the extractor that New returns or Update changes has the fields of the model's, and its pointer leads to the structure for the same rules. Nothing else that was in memory changes, and there is no panic. So New, by its text, always returns an extractor and no error, leaves nothing open, and logs exactly the lines that C72 says.", "quantifier": "all options, extractors, answers of the operating system and of the network, texts of errors, list texts whose rules are shorter than the largest int, IDNA functions, ways of rounding to float64, memories, allocators, orders of Scan, sizes of int from 32 bits", "why_tests_cant": "a test has one file system and one network; it cannot show that no sequence of failures leads to another call, a missing Close or a panic", "anchors": ["fasttld.go:New", "fasttld.go:trieConstruct", "psl.go:Update", "psl.go:update", "psl.go:checkCacheFile", "psl.go:downloadFile", "psl.go:fileLastModifiedHours", "psl.go:newHardcodedPSL", "psl.go:getPublicSuffixList", "psl.go:getHardcodedPublicSuffixList"]}
{"id": "C84", "title": "New and then Extract, by the text", "statement": "Read token by token and run by the rules of the language with memory, calls to the operating system and logging, a call of Extract on the extractor that New has returned logs exactly the lines that the model says and nothing else, asks nothing of the operating system, returns the model's result and the text of the model's error, and leaves memory and all extractors as they were; there is no panic. So at most one line is logged, only if an error is returned, and it is the text of an error of the IDNA library up to the first 'idna: invalid label'. Whatever the operating system answered to New, every later Extract returns the result and the error that the specification of C52 gives for the rules in the lines of a list: the one that was read from the file that the extractor's path names, or the built-in one if the path is empty; with the private section if and only if it was asked for.", "quantifier": "all options, answers of the operating system and of the network, texts of errors, list texts whose rules are shorter than the largest int, URLs and options of Extract, IDNA functions, ways of rounding to float64, memories, allocators, orders of Scan, sizes of int from 32 bits", "why_tests_cant": "a test runs one list on one file system and looks at the result, not at the log or at what else has changed; the repository tests no log output", "anchors": ["fasttld.go:Extract", "fasttld.go:New", "strings.go:formatAsPunycode", "psl.go:getPublicSuffixList"]}
{"id": "C85", "title": "PrintRes, by the text", "statement": "Read token by token and run by the rules of the language, a call of PrintRes with any URL and any result has exactly one run: it prints, in this order, for url, scheme, userinfo, subdomain, domain, suffix, registered domain, port and path the name, set flush right in a column of 17 and followed by a colon and a space, bright yellow and bold if there is a value and grey if not, and in white the value and a line break; then in the same way the host type (blue if there is one); then an empty line. It logs nothing, asks nothing of the operating system, does not panic, and memory and all extractors are as they were.", "quantifier": "all URLs and results (also with empty or multi-line fields), memories, sizes of int from 32 bits", "why_tests_cant": "the repository has no test of print.go; a test would compare one output", "anchors": ["print.go:PrintRes"]}
{"id": "C86", "title": "The command fasttld extract, by the text", "statement": "Read token by token and run by the rules of the language, the function that cobra calls for 'fasttld extract' with one argument always ends, whatever the operating system and the network answer: log.Fatal is never reached and there is no panic. What New does comes first, and nothing is printed meanwhile; then what Extract logs; then, if and only if Extract returned an error, 'Error: ' and its text; then what C85 says, for the argument as it was given and for the result. Error and result are those that the specification of C52 gives for the options of the flags and the rules in the lines of a list: one that was read from the file that New chose, or the built-in one; with the private section if and only if the flag asks for it. In the end nothing is left open.", "quantifier": "all arguments and flags, answers of the operating system and of the network, texts of errors, list texts whose rules are shorter than the largest int, IDNA functions, ways of rounding to float64, memories, allocators, orders of Scan, sizes of int from 32 bits", "why_tests_cant": "the repository has no test of the command; a test would run it with one argument on one file system", "anchors": ["cmd/fasttld/extract.go:Run", "print.go:PrintRes", "fasttld.go:New", "fasttld.go:Extract"]}
{"id": "C87", "title": "Programs that use the package, by the text", "statement": "Read token by token and run by the rules of the language, any number of calls of New, Extract and Update in one goroutine, in any order and on any number of extractors, do this: every call ends without a panic, whatever came before it and whatever the operating system and the network answer, if the extractor that it is on has been returned by New; it leaves nothing open. New always returns a new extractor and no error; its list is one that was read during the call from the path that the extractor keeps, or the built-in one with an empty path. Extract makes no system calls and returns what the specification of C52 gives for the rules of the list that its extractor has at that time, whatever was done to other extractors. Update that returns an error changes no extractor; one that returns none has read the file of its extractor, and from then on this extractor, and no other one, uses that text.", "quantifier": "all sequences of calls and their arguments, answers of the operating system and of the network, texts of errors, list texts whose rules are shorter than the largest int, IDNA functions, ways of rounding to float64, memories, allocators, orders of Scan, sizes of int from 32 bits", "why_tests_cant": "tests make one extractor each and call it a few times; none looks at two extractors while one is updated", "anchors": ["fasttld.go:New", "fasttld.go:Extract", "psl.go:Update"]}
{"id": "C88", "title": "Processes that share the cache file, and crashes, by the text", "statement": "Read token by token and run by the rules of the language, any number of processes that run New or Update, each in its own memory, taking turns after every access to memory, every system call and every piece of a write, and dying at any time, do this: if all mirrors only ever offer one list that ends with its last section marker, and at the start the default cache file is missing or holds a beginning of that list, then the file holds a beginning of that list at every moment, its contents only get longer, and every process that has finished has in its memory an extractor as it should be: New has one of the complete list or of the built-in list or of the file that was asked for, and no error; Update has one of the complete list, or an error and the extractor that it had. Whatever else happens, no process panics or gets stuck. Every schedule of the calls of the model is possible by the text; so, as there, if the list changes between two downloads, the file may come to hold parts of both, and New uses it. If Update alone is interrupted, no other file differs, and the cache file holds what it held with beginnings of complete downloaded lists written over it; under the conditions above the next New has the complete list or the built-in list.", "quantifier": "all numbers of processes, schedules, sizes of the pieces of writes, moments of death, states of the file system, answers of the network, times, texts of errors, list texts whose rules are shorter than the largest int, IDNA functions, ways of rounding to float64, memories, allocators, orders of Scan, sizes of int from 32 bits", "why_tests_cant": "no test runs two processes, interrupts one, or writes half a file", "anchors": ["fasttld.go:New", "psl.go:Update", "psl.go:update", "psl.go:checkCacheFile"]}
{"id": "C89", "title": "Names mean what the rules of the language take them for", "statement": "The rules by which the text is run know functions, types, packages and predeclared identifiers by name; in these files that is right, because no declaration is in the way. Each file of the package that is run imports its packages under their own names, without a dot and without another name; wherever the name of such a package stands, it is before a dot or after one; wherever the name of a function of the package stands, it is declared there, called, or after a dot. No function declares a parameter, result or variable with a predeclared name, the name of a package that its file imports, or that of a function or type of the package. Nothing at package level has a predeclared name or that of an imported package, and no name is declared there twice. The same holds for the imports and the function of the command extract.", "quantifier": "all occurrences of names in strings.go, net.go, fasttld.go, psl.go and print.go, all functions of these files, and the function of cmd/fasttld/extract.go", "why_tests_cant": "it is about how the text has to be read, not about what it does; a test runs whatever the compiler makes of it", "anchors": ["strings.go", "net.go", "fasttld.go", "psl.go", "print.go", "cmd/fasttld/extract.go"]}
{"id": "C90", "title": "The example program, by the text", "statement": "main of examples/demo.go, whose tokens are those of the file, always ends, whatever the operating system answers and the network sends: no call panics, log.Fatal is not reached, and in the end nothing is open. It prints ten results and nothing else, in order, each under its heading in bright and bold letters: the URL as it is given, and the parts of the result that the rules demand (C52) for the list that the extractor of that result has, with or without the private section as the program asks; in the tenth, the error is printed before the result. Each of the four lists was read from a file in this run, or is the built-in list. If no file could be read, the built-in list is that of the repository, and the IDNA library does what C68 assumes, then the ten results are those that README.md shows.", "quantifier": "All answers of the operating system and the network, all contents of files, all memories to begin with, all IDNA libraries (the last sentence: under the conditions of C68), int of any size from 32 bits on, every rounding of math.Log10.", "why_tests_cant": "The example is not run by any test; what it prints depends on the list that is downloaded or found, and a test sees one list, one network and one state of the cache file.", "anchors": ["examples/demo.go:10-95", "fasttld.go:142-434", "psl.go", "README.md"]}
