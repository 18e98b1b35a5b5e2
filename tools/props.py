import json
P=[]
def p(title,statement,quantifier,why,anchors):
    P.append(dict(id="C%02d"%(len(P)+1),title=title,statement=statement,quantifier=quantifier,why_tests_cant=why,anchors=anchors))
E_="fasttld.go:Extract"
p("Extract never panics and always terminates",
 "For every URL byte string (including invalid UTF-8), every option combination, every loaded suffix list and every behaviour of the IDNA library, Extract returns normally: no slice or index expression in it or its helpers is out of range and none of its loops runs forever.",
 "all byte strings, all URLParams, all suffix tries, all IDNA conversion functions","the input space is all byte strings times all suffix lists; a fuzz run samples it",[E_,"strings.go:fastTrim","strings.go:lastIndexAny","net.go:isIPv4","net.go:isIPv6"])
p("Extract loses no byte of the URL outside the host",
 "When Extract succeeds without punycode conversion, the whitespace-trimmed URL is exactly Scheme ++ (UserInfo ++ '@')? ++ host ++ (':' ++ Port)? ++ Path, where host is '[' ++ Domain ++ ']' for IPv6 and otherwise the host text that SubDomain/Domain/Suffix were cut from.",
 "all URLs on which Extract succeeds","needs every URL, not a table of them",[E_])
p("Host reassembly",
 "When Extract succeeds with HostType HostName, the host is exactly (SubDomain sep)? Domain (sep Suffix)? followed only by label separators: no host byte is dropped or attributed twice.",
 "all URLs, all suffix lists","depends on the interplay of host and suffix list",[E_])
p("RegisteredDomain is Domain.Suffix",
 "On success RegisteredDomain is Domain, one label separator, Suffix when Suffix is non-empty; it is empty when a HostName has no Suffix; for IP hosts it equals Domain.",
 "all URLs, all suffix lists","universal relation between three output fields",[E_])
p("Success and HostType agree",
 "If the error is nil then HostType is not None and Domain is not empty. If the error is non-nil then HostType is None, except that a valid bracketed IPv6 host followed by an invalid port leaves HostType IPv6.",
 "all URLs, options and suffix lists","must hold on every exit path",[E_])
p("IgnoreSubDomains changes only SubDomain",
 "Extract with IgnoreSubDomains=true returns the same error and the same result as with false, except that SubDomain is empty.",
 "all URLs, suffix lists, IDNA behaviours","relates two executions on every input",[E_])
p("Surrounding whitespace is irrelevant",
 "Adding any sequence of the library's whitespace/control code points before and after a URL does not change the result of Extract.",
 "all URLs and all whitespace strings","unbounded paddings, including next to invalid UTF-8",[E_,"strings.go:fastTrim"])
p("Exact scheme grammar",
 "Scheme is the longest prefix of the trimmed URL of the form (letter (letter|digit|+|-|.)* ':'?)? followed by two or more slashes or backslashes, and is empty exactly if no such prefix exists.",
 "all URLs","infinite language",["strings.go:getSchemeEndIndex",E_])
p("A scheme needs a colon",
 "A non-empty Scheme that contains anything other than slashes ends its name with ':' (RFC 3986).",
 "all URLs","infinite language",["strings.go:getSchemeEndIndex"])
p("Exact userinfo rule",
 "UserInfo is everything before the last '@' that precedes the first of / \\ ? # [ ] after the scheme; if there is no such '@' it is empty and nothing is removed.",
 "all URLs","infinite language",["strings.go:indexLastByteBefore",E_])
p("Port is a number in range",
 "When Extract succeeds and Port is non-empty, Port is a decimal numeral with value 0..65535; a host followed by ':' and anything else is rejected with an error.",
 "all URLs","infinite language",[E_])
p("Path is everything from the first delimiter after the authority",
 "On success Path is empty or begins with one of / \\ ? #, it is the rest of the URL from the first such delimiter after the host, and the host and port contain none of these delimiters.",
 "all URLs","infinite language",[E_])
p("IPv6 literal recognition is exactly the grammar",
 "The text between the square brackets is accepted iff it is eight 16-bit hex groups separated by ':' with at most one '::' standing for at least one group, where the last two groups may be written as a dotted IPv4 address.",
 "all byte strings","infinite language",["net.go:isIPv6","net.go:xtoi"])
p("IPv4 literal recognition is exactly dotted quad",
 "The IPv4 check accepts exactly four decimal octets 0..255 without leading zeros separated by any of the four label separators, followed by any number of label separators.",
 "all byte strings","infinite language",["net.go:isIPv4","net.go:dtoi"])
p("IPv4 hosts are classified as IPv4",
 "If the host is a dotted quad then Extract succeeds with HostType IPv4, Domain and RegisteredDomain equal to the address without trailing separators, and empty SubDomain and Suffix; and HostType IPv4 is returned for no other host.",
 "all URLs, all suffix lists","depends on the suffix list and the unbounded trailing separators",[E_,"net.go:isIPv4"])
p("Brackets are only for IPv6",
 "Extract succeeds on an authority containing '[' or ']' only if the host is '[' ++ valid IPv6 literal ++ ']' , followed by nothing, a port or a path; then HostType is IPv6 and Domain is the literal. Every other use of brackets in the authority is an error.",
 "all URLs","infinite language",[E_])
p("Suffix follows the Public Suffix List algorithm",
 "For a valid hostname, Suffix is the public suffix given by the publicsuffix.org algorithm over the loaded rules (exception rules win, otherwise the longest matching rule, '*' matching one label); Domain is the label before it and SubDomain the rest. If no rule matches there is no Suffix.",
 "all rule lists, all hostnames","product of all rule lists with all hostnames",[E_,"fasttld.go:trieConstruct","fasttld.go:nestedDict"])
p("Rule order and duplicates are irrelevant",
 "Two suffix lists with the same set of rules give the same Extract result on every URL.",
 "all pairs of rule lists with equal sets, all URLs","all permutations of all lists",["fasttld.go:nestedDict","fasttld.go:trieConstruct",E_])
p("The suffix index holds exactly the rules",
 "After construction, a reversed label path is present iff it is a prefix of some rule, and it is marked as a complete suffix iff it is itself a rule or is a top-level label with a wildcard rule below it.",
 "all rule lists","all lists, all insertion orders",["fasttld.go:nestedDict","fasttld.go:trieConstruct"])
p("Domain is a single label",
 "On success with HostType HostName, Domain is non-empty and contains none of the four label separators.",
 "all URLs, suffix lists, IDNA behaviours","infinite inputs",[E_,"strings.go:lastIndexAny"])
p("Invalid hostname characters are rejected",
 "On success with HostType HostName, SubDomain and Domain contain none of the characters in the library's invalid hostname character list.",
 "all URLs, suffix lists","infinite inputs",["strings.go:hasInvalidChars",E_])
p("Empty labels are rejected",
 "On success with HostType HostName, SubDomain and Domain contain no empty label: the host does not begin with a label separator and has no two adjacent separators before its last label.",
 "all URLs, suffix lists","infinite inputs",["strings.go:hasInvalidChars",E_])
p("The four label separators are interchangeable",
 "If Extract succeeds on a host name, then replacing any of its label separators by others of the four succeeds too and yields the same labels in SubDomain, Domain and Suffix.",
 "all hosts, all separator substitutions, all suffix lists","2^n substitutions of unbounded hosts",[E_,"strings.go:lastIndexAny","strings.go:sepSize"])
p("Percent-encoded suffix labels match",
 "A rule label is matched by a host label iff the percent-decoded host label equals it, and Suffix reports the undecoded text; a malformed percent escape in the host is an error.",
 "all hosts, all suffix lists","infinite inputs",[E_])
p("Unknown TLD",
 "If no rule begins with the host's last label (and there is no bare '*' rule) then Suffix and RegisteredDomain are empty, Domain is the last non-empty label and SubDomain everything before it.",
 "all rule lists and hosts","product of rule lists and hosts",[E_])
p("Adding subdomains does not move the registrable domain",
 "If Extract succeeds on host h as HostName, then on x.h, for any valid label x (and x.h not IPv4), it succeeds with the same Domain, Suffix and RegisteredDomain, and SubDomain extended by x.",
 "all hosts, labels, suffix lists","relates executions on all inputs",[E_])
p("Re-extraction of RegisteredDomain is stable",
 "If Extract succeeds with a non-empty Suffix, then extracting RegisteredDomain gives the same Domain, Suffix, RegisteredDomain and an empty SubDomain.",
 "all URLs, suffix lists","relates two executions",[E_])
p("Userinfo, scheme, port and path do not influence the host",
 "For two URLs with the same host text, whatever their scheme, userinfo, port and path, Extract yields the same SubDomain, Domain, Suffix, RegisteredDomain and HostType when both succeed, and a host-level failure in one is the same failure in the other.",
 "all URL parts","unbounded product of parts",[E_])
p("Suffix list parsing is exact",
 "Every line that is neither blank nor a // comment contributes, in order, its ASCII form and, if different, itself; lines whose ASCII conversion fails contribute nothing; a line is private iff a line equal to the BEGIN PRIVATE marker occurred before it; and allSuffixes = publicSuffixes ++ privateSuffixes.",
 "all file contents, all IDNA behaviours","all files",["psl.go:processLine","psl.go:getPublicSuffixList"])
p("Comments, blank lines, indentation and CRLF are irrelevant",
 "Inserting comment or blank lines anywhere, padding lines with white space, or using CRLF line ends does not change the parsed suffix lists.",
 "all files and all such edits","all files",["psl.go:processLine"])
p("IncludePrivateSuffix=false hides the private section",
 "An extractor built without private suffixes gives identical results whatever the private section of the list contains.",
 "all lists, all private sections, all URLs","all lists",["psl.go:processLine","fasttld.go:trieConstruct"])
p("Character sets are exact",
 "An ASCII set built from a string contains exactly the ASCII characters of that string, and no byte >= 128.",
 "all strings, all bytes","bit-level claim over all strings",["strings.go:makeASCIISet","strings.go:contains"])
p("Trimming is exact",
 "fastTrim removes exactly the maximal runs of trim characters at the requested ends of any byte string and nothing else.",
 "all byte strings, trim sets and modes","invalid UTF-8 decodes differently forwards and backwards; all strings",["strings.go:fastTrim"])
p("Separator search is exact on arbitrary bytes",
 "lastIndexAny returns the last byte offset at which the UTF-8 encoding of a set member occurs, or -1 if there is none, even in invalid UTF-8.",
 "all byte strings, all rune sets without U+FFFD","needs UTF-8 self-synchronisation on all strings",["strings.go:lastIndexAny"])
p("reverse reverses",
 "reverse turns any slice into its mirror image, so applying it twice is the identity.",
 "all slices","all lengths",["strings.go:reverse"])
p("New always yields a working extractor",
 "For every state of file system, clock and network, New returns a nil error and an extractor whose rules come from the custom file, the default cache file, or the built-in list, with the requested private-suffix setting.",
 "all environments","environment space: missing/unreadable files, directories, failed downloads",["fasttld.go:New","psl.go:newHardcodedPSL","psl.go:checkCacheFile"])
p("A valid custom list is used as is",
 "If CacheFilePath names a readable regular file with the four section markers, New uses exactly that file, performs no download and writes no file.",
 "all environments and file contents","all environments",["fasttld.go:New","psl.go:checkCacheFile"])
p("Update refuses custom lists without side effects",
 "Update on an extractor whose list is not the default cache file returns an error and changes neither the extractor nor any file.",
 "all extractors and environments","all environments",["psl.go:Update"])
p("A failed Update leaves the extractor untouched",
 "If Update returns an error, the extractor answers every later Extract as before.",
 "all environments and failure points","all failure points",["psl.go:Update"])
p("A successful Update installs the downloaded list",
 "If Update succeeds, the cache file equals the body of the first source whose download succeeded and is valid, and the extractor's rules are those of that body.",
 "all environments, old file contents and bodies","depends on the old content of the file",["psl.go:Update","psl.go:update"])
p("Only validated downloads are written, in source order",
 "update writes only bodies that contain all four section markers, tries the sources in order, stops at the first success, and fails iff every source fails.",
 "all source outcomes","all combinations of failures, unbounded number of sources",["psl.go:update","psl.go:validPSLDelimiters"])
p("Three-day freshness rule",
 "New without a usable custom path contacts the network iff the default cache file is invalid or was modified more than 72 hours ago.",
 "all clocks and file states","all times",["fasttld.go:New","psl.go:fileLastModifiedHours"])
p("Crash safety of the cache",
 "If the process dies at any point while Update writes the cache, the next New works and uses either the complete old list, the complete new list, or the built-in list.",
 "all crash points, old and new contents","all crash points",["psl.go:update","psl.go:Update","fasttld.go:New"])
p("Invariants over every history of New and Update",
 "Along every sequence of New and Update calls in changing environments, the private-suffix setting never changes, the cache path only ever is the given one, the default one or empty, and the rules are always those of a file content that was on disk during a call or the built-in list.",
 "all call histories","unbounded histories",["fasttld.go:New","psl.go:Update"])
p("Extract concurrent with Update sees one list",
 "An Extract that overlaps Updates returns the result of the list installed before or after some Update, never a mixture.",
 "all interleavings","all schedules",[E_,"psl.go:Update"])
p("PrintRes shows every component",
 "PrintRes prints, in a fixed order, one line per component with its label and exact value, highlights exactly the labels of non-empty components and names the host type.",
 "all results","all results",["print.go:PrintRes"])
p("Host matching is case-insensitive",
 "Changing the case of ASCII letters in a host does not change which suffix is recognised (host names are case-insensitive, RFC 4343).",
 "all hosts and rule lists","all hosts",[E_])
open('/verif/properties.jsonl','w').write("".join(json.dumps(x,ensure_ascii=False)+"\n" for x in P))
print(len(P))
