import Verif.Model.Lines

/-!
# The files

strings.go, net.go, fasttld.go, psl.go, print.go and cmd/fasttld/extract.go, copied unchanged by tools/gen_source.py.
-/

namespace Fasttld.GoLang.Files
open Fasttld

/-- strings.go -/
def stringsGo : List Nat := lines! r##"package fasttld

import (
	"log"
	"strings"
	"unicode/utf8"

	"github.com/karlseguin/intset"
	"golang.org/x/net/idna"
)

// const string -----------------------------------------------------------

const alphabets string = "ABCDEFGHIJKLMNOPQRSTUVWXYZabcdefghijklmnopqrstuvwxyz"
const numbers string = "0123456789"

// IETF RFC 3490
const labelSeparators string = "\u002e\u3002\uff0e\uff61"

const controlChars string = "\u0000\u0001\u0002\u0003\u0004\u0005\u0006\u0007\u0008\t\n\v\f\r\u000e\u000f" +
	"\u0010\u0011\u0012\u0013\u0014\u0015\u0016\u0017\u0018\u0019\u001a\u001b\u001c\u001d\u001e\u001f"
const whitespace string = controlChars + " \u0085\u0086\u00a0\u1680\u200b\u200c\u200d\uFEFF"
const invalidHostNameChars string = whitespace + "!\"#$&'()*+,/:;<=>?@[\\]^_`{|}~\u0378\u04c0\u06dd\u180e\u2025\u202e\u206b\u2183\u2a74\u2ff0\ufdd0\uff05\uff0f\uff1a\ufffa"

const endOfHostWithPortDelimiters string = `/\?#`
const endOfHostDelimiters string = endOfHostWithPortDelimiters + ":"
const invalidUserInfoChars string = endOfHostWithPortDelimiters + "[]"

// asciiSet ---------------------------------------------------------------

var numericSet asciiSet = makeASCIISet(numbers)
var alphaNumericSet asciiSet = makeASCIISet(alphabets + numbers)
var endOfHostWithPortDelimitersSet asciiSet = makeASCIISet(endOfHostWithPortDelimiters)
var endOfHostDelimitersSet asciiSet = makeASCIISet(endOfHostDelimiters)
var invalidUserInfoCharsSet asciiSet = makeASCIISet(invalidUserInfoChars)

var schemeFirstCharSet asciiSet = makeASCIISet(alphabets)
var schemeRemainingCharSet asciiSet = makeASCIISet(alphabets + numbers + "+-.")
var slashes asciiSet = makeASCIISet(`/\`)

// asciiSet is a 32-byte value, where each bit represents the presence of a
// given ASCII character in the set. The 128-bits of the lower 16 bytes,
// starting with the least-significant bit of the lowest word to the
// most-significant bit of the highest word, map to the full range of all
// 128 ASCII characters. The 128-bits of the upper 16 bytes will be zeroed,
// ensuring that any non-ASCII character will be reported as not in the set.
// This allocates a total of 32 bytes even though the upper half
// is unused to avoid bounds checks in asciiSet.contains.
type asciiSet [8]uint32

// makeASCIISet creates a set of ASCII characters from runes in chars.
// Non-ASCII runes are skipped. Similar to strings.makeASCIISet.
func makeASCIISet(chars string) (as asciiSet) {
	for _, c := range chars {
		if c < utf8.RuneSelf {
			as[c/32] |= 1 << (c % 32)
		}
	}
	return as
}

// contains reports whether c is inside the set.
//
// same as strings.contains.
func (as *asciiSet) contains(c byte) bool {
	return (as[c/32] & (1 << (c % 32))) != 0
}

// *intset.Rune -----------------------------------------------------------

var labelSeparatorsRuneSet *intset.Rune = makeRuneSet(labelSeparators)
var whitespaceRuneSet *intset.Rune = makeRuneSet(whitespace)
var invalidHostNameCharsRuneSet *intset.Rune = makeRuneSet(invalidHostNameChars)

// makeRuneSet converts a string to a set of unique runes
func makeRuneSet(s string) (iset *intset.Rune) {
	var biggestRune rune
	for idx, r := range s {
		if idx == 0 || r > biggestRune {
			biggestRune = r
		}
	}
	// optimal target capacity
	iset = intset.NewRune(biggestRune)
	for _, r := range s {
		iset.Set(r)
	}
	return
}

// ------------------------------------------------------------------------

// getSchemeEndIndex checks if string s begins with a URL Scheme and
// returns its last index. Returns -1 if no Scheme exists.
func getSchemeEndIndex(s string) int {
	var colon bool
	var slashCount int

	for i := 0; i < len(s); i++ {
		// first character
		if i == 0 {
			// expecting schemeFirstCharSet or slash
			if schemeFirstCharSet.contains(s[i]) {
				continue
			}
			if slashes.contains(s[i]) {
				slashCount++
				continue
			}
			return -1
		}
		// second character onwards
		// if no slashes yet, look for schemeRemainingCharSet or colon
		// otherwise look for slashes
		if slashCount == 0 {
			if !colon {
				if schemeRemainingCharSet.contains(s[i]) {
					continue
				}
				if s[i] == ':' {
					colon = true
					continue
				}
			}
			if slashes.contains(s[i]) {
				slashCount++
				continue
			}
			return -1
		}
		// expecting only slashes
		if slashes.contains(s[i]) {
			slashCount++
			continue
		}
		if slashCount < 2 {
			return -1
		}
		return i
	}
	if slashCount >= 2 {
		return len(s)
	}
	return -1
}

// indexAnyASCII returns the index of the first instance of any Unicode code point
// from asciiSet in s, or -1 if no Unicode code point from asciiSet is present in s.
//
// Similar to strings.IndexAny but takes in an asciiSet instead of a string
// and skips input validation.
func indexAnyASCII(s string, as asciiSet) int {
	for i, b := range []byte(s) {
		if as.contains(b) {
			return i
		}
	}
	return -1
}

// hasInvalidChars checks s for invalid runes
//
// or leading/consecutive label separators
//
// or leading/trailing dash
func hasInvalidChars(s string) bool {
	var isLabelSeparator bool
	lastByteIdx := len(s) - 1
	for idx, c := range s {
		if alphaNumericSet.contains(byte(c)) {
			// check for alphanumeric characters early to avoid expensive intset search
			isLabelSeparator = false
			continue
		}
		if idx == 0 && (c == '-' || labelSeparatorsRuneSet.Exists(c)) {
			// starts with a dash or label separator
			return true
		}
		if idx == lastByteIdx && c == '-' {
			// ends with a dash
			return true
		}
		if labelSeparatorsRuneSet.Exists(c) {
			if isLabelSeparator {
				// reject consecutive label separators
				return true
			}
			isLabelSeparator = true
		} else {
			isLabelSeparator = false
		}
		if invalidHostNameCharsRuneSet.Exists(c) {
			return true
		}
	}
	return false
}

// lastIndexAny returns the index of the last instance of any Unicode code
// point from chars in s, or -1 if no Unicode code point from chars is
// present in s.
//
// Similar to strings.LastIndexAny but skips input validation and uses *intset.Rune.
func lastIndexAny(s string, chars *intset.Rune) int {
	for i := len(s); i > 0; {
		r, size := utf8.DecodeLastRuneInString(s[0:i])
		i -= size
		if chars.Exists(r) {
			return i
		}
	}
	return -1
}

// reverse reverses a slice of strings in-place.
func reverse(input []string) {
	for i, j := 0, len(input)-1; i < j; i, j = i+1, j-1 {
		input[i], input[j] = input[j], input[i]
	}
}

// sepSize returns byte length of an sep rune, given the rune's first byte.
func sepSize(r byte) int {
	// r is the first byte of any of the runes in labelSeparators
	if r == 46 {
		// First byte of '.' is 46
		// size of '.' is 1
		return 1
	}
	// First byte of any label separator other than '.' is not 46
	// size of separator is 3
	return 3
}

var idnaToPuny *idna.Profile = idna.New(idna.MapForLookup(), idna.Transitional(true), idna.BidiRule(), idna.CheckHyphens(true))

// formatAsPunycode formats s as punycode.
func formatAsPunycode(s string) string {
	asPunyCode, err := idnaToPuny.ToASCII(s)
	if err != nil {
		log.Println(strings.SplitAfterN(err.Error(), "idna: invalid label", 2)[0])
		return ""
	}
	return asPunyCode
}

// indexLastByteBefore returns the index of the last instance of byte b
// before any byte in notAfterCharsSet, otherwise -1
func indexLastByteBefore(s string, b byte, notAfterCharsSet asciiSet) int {
	if firstNotAfterCharIdx := indexAnyASCII(s, notAfterCharsSet); firstNotAfterCharIdx != -1 {
		return strings.LastIndexByte(s[0:firstNotAfterCharIdx], b)
	}
	return strings.LastIndexByte(s, b)
}

// trimMode specifies which parts of string to trim for fastTrim()
type trimMode int

const (
	trimBoth trimMode = iota
	trimLeft
	trimRight
)

// fastTrim works like strings.Trim but uses *intset.Rune
func fastTrim(s string, charsToTrim *intset.Rune, mode trimMode) string {
	var startIdx, endIdx int
	if mode != trimRight {
		// Trim left-hand side
		var trimCharsExist bool
		var broken bool
		for idx, c := range s {
			startIdx = idx
			if !charsToTrim.Exists(c) {
				broken = true
				break
			}
			trimCharsExist = true
		}
		if trimCharsExist && !broken {
			// Return empty string if every character in s exists in charsToTrim
			return ""
		}
	}
	if mode != trimLeft {
		// Trim right-hand side
		var trimCharsExist bool
		var broken bool
		for i := len(s); i > 0; {
			endIdx = i
			r, size := utf8.DecodeLastRuneInString(s[0:i])
			i -= size
			if !charsToTrim.Exists(r) {
				broken = true
				break
			}
			trimCharsExist = true
		}
		if trimCharsExist && !broken {
			// Return empty string if every character in s exists in charsToTrim
			return ""
		}
	} else {
		endIdx = len(s)
	}
	return s[startIdx:endIdx]
}
"##

/-- net.go -/
def netGo : List Nat := lines! r##"package fasttld

import "unicode/utf8"

// IP address lengths (bytes).
const (
	iPv4len int = 4
	iPv6len int = 16
	lenDiff     = iPv6len - iPv4len
)

// Bigger than we need, not too big to worry about overflow
const big int = 0xFFFFFF

// Decimal to integer.
// Returns number, characters consumed, success.
func dtoi(s string) (n int, i int, ok bool) {
	n = 0
	for i = 0; i < len(s) && '0' <= s[i] && s[i] <= '9'; i++ {
		n = n*10 + int(s[i]-'0')
		if n >= big {
			return big, i, false
		}
	}
	if i == 0 {
		return 0, 0, false
	}
	return n, i, true
}

// Hexadecimal to integer.
// Returns number, characters consumed, success.
func xtoi(s string) (n int, i int, ok bool) {
	n = 0
	for i = 0; i < len(s); i++ {
		if '0' <= s[i] && s[i] <= '9' {
			n *= 16
			n += int(s[i] - '0')
		} else if 'a' <= s[i] && s[i] <= 'f' {
			n *= 16
			n += int(s[i]-'a') + 10
		} else if 'A' <= s[i] && s[i] <= 'F' {
			n *= 16
			n += int(s[i]-'A') + 10
		} else {
			break
		}
		if n >= big {
			return 0, i, false
		}
	}
	if i == 0 {
		return 0, i, false
	}
	return n, i, true
}

// isIPv4 returns true if s is a literal IPv4 address
//
// trailing label separators are accepted
func isIPv4(s string) bool {
	s = fastTrim(s, labelSeparatorsRuneSet, trimRight)
	for i := 0; i < iPv4len; i++ {
		if len(s) == 0 {
			// Missing octets.
			return false
		}
		if i > 0 {
			r, size := utf8.DecodeRuneInString(s)
			if !labelSeparatorsRuneSet.Exists(r) {
				return false
			}
			s = s[size:]
		}
		n, c, ok := dtoi(s)
		if !ok || n > 0xFF {
			return false
		}
		if c > 1 && s[0] == '0' {
			// Reject non-zero components with leading zeroes.
			return false
		}
		s = s[c:]
	}
	return len(s) == 0
}

// isIPv6 returns true if s is a literal IPv6 address as described in RFC 4291
// and RFC 5952.
func isIPv6(s string) bool {
	ellipsis := -1 // position of ellipsis in ip

	// Might have leading ellipsis
	if len(s) >= 2 && s[0] == ':' && s[1] == ':' {
		ellipsis = 0
		s = s[2:]
		// Might be only ellipsis
		if len(s) == 0 {
			return true
		}
	}

	// Loop, parsing hex numbers followed by colon.
	i := 0
	for i < iPv6len {
		// Hex number.
		n, c, ok := xtoi(s)
		if !ok || n > 0xFFFF {
			return false
		}

		// If followed by any separator in labelSeparators, might be in trailing IPv4.
		if c < len(s) && labelSeparatorsRuneSet.Exists([]rune(s[c:])[0]) {
			if ellipsis < 0 && i != lenDiff {
				// Not the right place.
				return false
			}
			if i > lenDiff {
				// Not enough room.
				return false
			}
			if !isIPv4(s) {
				return false
			}
			s = ""
			i += iPv4len
			break
		}

		// Save this 16-bit chunk.
		i += 2

		// Stop at end of string.
		s = s[c:]
		if len(s) == 0 {
			break
		}

		// Otherwise must be followed by colon and more.
		if s[0] != ':' || len(s) == 1 {
			return false
		}
		s = s[1:]

		// Look for ellipsis.
		if s[0] == ':' {
			if ellipsis >= 0 { // already have one
				return false
			}
			ellipsis = i
			s = s[1:]
			if len(s) == 0 { // can be at end
				break
			}
		}
	}

	// Must have used entire string.
	if len(s) != 0 {
		return false
	}

	// If didn't parse enough, expand ellipsis.
	if i < iPv6len {
		if ellipsis < 0 {
			return false
		}
	} else if ellipsis >= 0 {
		// Ellipsis must represent at least one 0 group.
		return false
	}
	return true
}
"##

/-- fasttld.go -/
def fasttldGo : List Nat := lines! r##"// Package fasttld is a high performance effective top level domains (eTLD)
// extraction module implemented with compressed tries.
//
// This module is a port of the Python fasttld module,
// with additional modifications to support extraction
// of subcomponents from full URLs, IPv4 addresses, and IPv6 addresses.
package fasttld

import (
	"errors"
	"log"
	"net/url"
	"strconv"
	"strings"

	"github.com/spf13/afero"
	"github.com/tidwall/hashmap"
	"golang.org/x/net/idna"
)

const defaultPSLFolder string = "data"
const defaultPSLFileName string = "public_suffix_list.dat"
const largestPortNumber int = 65535
const pslMaxAgeHours float64 = 72

// FastTLD provides the Extract() function, to extract
// URLs using tldTrie generated from the
// Public Suffix List file at cacheFilePath.
type FastTLD struct {
	cacheFilePath        string
	tldTrie              *trie
	includePrivateSuffix bool
}

// HostType indicates whether parsed URL
// contains a HostName, IPv4 address, IPv6 address
// or none of them
type HostType int

// None, HostName, IPv4 and IPv6 indicate whether parsed URL
// contains a HostName, IPv4 address, IPv6 address
// or none of them
const (
	None HostType = iota
	HostName
	IPv4
	IPv6
)

// ExtractResult contains components extracted from URL.
type ExtractResult struct {
	Scheme, UserInfo, SubDomain, Domain, Suffix, RegisteredDomain, Port, Path string
	HostType                                                                  HostType
}

// SuffixListParams contains parameters for specifying path to Public Suffix List file and
// whether to extract private suffixes (e.g. blogspot.com).
type SuffixListParams struct {
	CacheFilePath        string
	IncludePrivateSuffix bool
}

// URLParams specifies URL to extract components from.
//
// If IgnoreSubDomains = true, do not extract SubDomain.
//
// If ConvertURLToPunyCode = true, convert non-ASCII characters like 世界 to punycode.
type URLParams struct {
	URL                  string
	IgnoreSubDomains     bool
	ConvertURLToPunyCode bool
}

// trie is a node of the compressed trie
// used to store Public Suffix List eTLDs.
type trie struct {
	matches hashmap.Map[string, *trie]
	end     bool
}

// nestedDict stores a slice of keys in the trie, by traversing the trie using the keys as a "path",
// creating new tries for keys that do not exist yet.
//
// If a new path overlaps an existing path, flag the previous path's trie node as end = true.
func nestedDict(dic *trie, keys []string) {
	for _, key := range keys {
		if _, ok := dic.matches.Get(key); !ok {
			// key doesn't exist; add new node
			var m hashmap.Map[string, *trie]
			dic.matches.Set(key, &trie{matches: m})
		}
		dic, _ = dic.matches.Get(key)
	}
	// set last node to end = true
	dic.end = true
}

// trieConstruct constructs a compressed trie to store Public Suffix List eTLDs split at "." in reverse-order.
//
// For example: "us.gov.pl" will be stored in the order {"pl", "gov", "us"}.
func trieConstruct(includePrivateSuffix bool, cacheFilePath string) (*trie, error) {
	var m hashmap.Map[string, *trie]
	tldTrie := &trie{matches: m}

	var suffixLists suffixes
	var err error
	if cacheFilePath != "" {
		suffixLists, err = getPublicSuffixList(cacheFilePath)
	} else {
		suffixLists, err = getHardcodedPublicSuffixList()
	}

	if err != nil {
		log.Println(err)
		return tldTrie, err
	}

	var suffixList []string
	if includePrivateSuffix {
		suffixList = suffixLists.allSuffixes
	} else {
		suffixList = suffixLists.publicSuffixes
	}

	for _, suffix := range suffixList {
		sp := strings.Split(suffix, ".")
		reverse(sp)
		nestedDict(tldTrie, sp)
	}

	tldTrie.matches.Scan(func(key string, value *trie) bool {
		if _, ok := value.matches.Get("*"); ok {
			value.end = true
		}
		return true
	})

	return tldTrie, nil
}

// Extract components from a given `url`.
func (f *FastTLD) Extract(e URLParams) (ExtractResult, error) {
	urlParts := ExtractResult{}

	// Extract URL scheme
	netloc := fastTrim(e.URL, whitespaceRuneSet, trimBoth)
	if schemeEndIndex := getSchemeEndIndex(netloc); schemeEndIndex != -1 {
		urlParts.Scheme = netloc[0:schemeEndIndex]
		netloc = netloc[schemeEndIndex:]
	}

	// Extract URL userinfo
	if atIdx := indexLastByteBefore(netloc, '@', invalidUserInfoCharsSet); atIdx != -1 {
		urlParts.UserInfo = netloc[0:atIdx]
		netloc = netloc[atIdx+1:]
	}

	// Find square brackets (if any) and host end index
	openingSquareBracketIdx := -1
	closingSquareBracketIdx := -1
	hostEndIdx := -1

	for i, r := range []byte(netloc) {
		if r == '[' {
			// Check for opening square bracket
			if i > 0 {
				// Reject if opening square bracket is not first character of hostname
				return urlParts, errors.New("opening square bracket is not first character of hostname")
			}
			openingSquareBracketIdx = i
		}
		if r == ']' {
			// Check for closing square bracket
			closingSquareBracketIdx = i
		}

		if openingSquareBracketIdx == -1 {
			if closingSquareBracketIdx != -1 {
				// Reject if closing square bracket present but no opening square bracket
				return urlParts, errors.New("closing square bracket present but no opening square bracket")
			}
			if endOfHostDelimitersSet.contains(r) {
				// If no square brackets
				// Check for endOfHostDelimitersSet
				hostEndIdx = i
				break
			}
		} else if closingSquareBracketIdx > openingSquareBracketIdx && endOfHostWithPortDelimitersSet.contains(r) {
			// If opening + closing square bracket are present in correct order
			// check for endOfHostWithPortDelimitersSet
			hostEndIdx = i
			break
		}

		if i == len(netloc)-1 && closingSquareBracketIdx < openingSquareBracketIdx {
			// Reject if end of netloc reached but incomplete square bracket pair
			return urlParts, errors.New("incomplete square bracket pair")
		}
	}

	if closingSquareBracketIdx == len(netloc)-1 {
		hostEndIdx = -1
	} else if closingSquareBracketIdx != -1 {
		hostEndIdx = closingSquareBracketIdx + 1
	}

	// Check for IPv6 address
	if closingSquareBracketIdx > openingSquareBracketIdx {
		if !isIPv6(netloc[1:closingSquareBracketIdx]) {
			// Have square brackets but invalid IPv6 address => Domain is invalid
			return urlParts, errors.New("invalid IPv6 address")
		}
		if hostEndIdx != -1 {
			afterHost := netloc[hostEndIdx:]
			if indexAnyASCII(afterHost, endOfHostDelimitersSet) != 0 {
				// Reject IPv6 if there are invalid trailing characters after IPv6 address
				return urlParts, errors.New("invalid trailing characters after IPv6 address")
			}
		}
		// Closing square bracket in correct place and IPv6 is valid
		urlParts.HostType = IPv6
		urlParts.Domain = netloc[1:closingSquareBracketIdx]
		urlParts.RegisteredDomain = netloc[1:closingSquareBracketIdx]
	}

	var afterHost string
	// Separate URL host from subcomponents thereafter
	if hostEndIdx != -1 {
		afterHost = netloc[hostEndIdx:]
		netloc = netloc[0:hostEndIdx]
	}

	// Extract Port and "Path" if any
	if len(afterHost) != 0 {
		pathStartIndex := indexAnyASCII(afterHost, endOfHostWithPortDelimitersSet)
		if afterHost[0] == ':' {
			var maybePort string
			if pathStartIndex == -1 {
				maybePort = afterHost[1:]
			} else {
				maybePort = afterHost[1:pathStartIndex]
			}
			if port, err := strconv.Atoi(maybePort); err == nil && 0 <= port && port <= largestPortNumber {
				urlParts.Port = maybePort
			} else {
				return urlParts, errors.New("invalid port")
			}
		}
		if pathStartIndex != -1 && pathStartIndex != len(afterHost) {
			// If there is any path/query/fragment after the URL authority component...
			// See https://stackoverflow.com/questions/47543432/what-do-we-call-the-combined-path-query-and-fragment-in-a-uri
			// For simplicity, we shall call this the "Path".
			urlParts.Path = afterHost[pathStartIndex:]
		}
	}

	if urlParts.HostType == IPv6 {
		return urlParts, nil
	}

	// decode all percentage encoded characters, if any
	unescapedNetloc, err := url.QueryUnescape(netloc)
	if err != nil {
		return urlParts, err
	}

	if e.ConvertURLToPunyCode {
		netloc = formatAsPunycode(unescapedNetloc)
	} else if _, err := idna.ToUnicode(unescapedNetloc); err != nil {
		// host is invalid if host cannot be converted to Unicode
		//
		// skip if host already converted to punycode
		log.Println(strings.SplitAfterN(err.Error(), "idna: invalid label", 2)[0])
		return urlParts, err
	}

	// Check for eTLD Suffix
	node := f.tldTrie

	var (
		hasSuffix      bool
		hasLabels      bool
		end            bool
		previousSepIdx int
	)
	sepIdx, suffixStartIdx, suffixEndIdx := len(netloc), len(netloc), len(netloc)

	for !end {
		var label string
		previousSepIdx = sepIdx
		sepIdx = lastIndexAny(netloc[0:sepIdx], labelSeparatorsRuneSet)
		if sepIdx != -1 {
			label = netloc[sepIdx+sepSize(netloc[sepIdx]) : previousSepIdx]
			if len(label) == 0 {
				// allow consecutive label separators if suffix not found yet
				if !hasLabels {
					suffixEndIdx = sepIdx
					continue
				}
				// any occurrences of consecutive label separators on left-hand side of a label are illegal.
				return urlParts, errors.New("invalid consecutive label separators on left-hand side of a label")
			}
			hasLabels = true
		} else {
			label = netloc[0:previousSepIdx]
			end = true
		}

		if _, ok := node.matches.Get("*"); ok {
			// check if label falls under any wildcard exception rule
			// e.g. !www.ck
			if _, ok := node.matches.Get("!" + label); ok {
				sepIdx = previousSepIdx
			}
			break
		}

		// check if label is part of an eTLD
		label, _ = url.QueryUnescape(label)
		if val, ok := node.matches.Get(label); ok {
			suffixStartIdx = sepIdx
			if !hasSuffix && val.end {
				// index of end of suffix without trailing label separators
				suffixEndIdx = previousSepIdx
				hasSuffix = true
			}
			node = val
			if val.matches.Len() == 0 {
				// label is at a leaf node (no children) ; break out of loop
				break
			}
		} else {
			if previousSepIdx != len(netloc) {
				sepIdx = previousSepIdx
			}
			break
		}
	}

	// Check for IPv4 address
	// Minimum possible length: len("0.0.0.0") -> 7
	// Ensure first rune is numeric before expensive isIPv4()
	if len(netloc) >= 7 && numericSet.contains(netloc[0]) && isIPv4(netloc) {
		urlParts.HostType = IPv4
		urlParts.Domain = netloc[0:previousSepIdx]
		urlParts.RegisteredDomain = urlParts.Domain
		return urlParts, nil
	}

	if sepIdx == -1 {
		sepIdx, suffixStartIdx = len(netloc), len(netloc)
	}

	// Reject if invalidHostNameChars or consecutive label separators
	// appears before Suffix
	if hasSuffix {
		if hasInvalidChars(netloc[0:suffixStartIdx]) {
			return urlParts, errors.New("invalid characters in hostname")
		}
	} else {
		if hasInvalidChars(netloc[0:previousSepIdx]) {
			return urlParts, errors.New("invalid characters in hostname")
		}
	}

	var domainStartSepIdx int
	if hasSuffix {
		if sepIdx < len(netloc) { // If there is a Domain
			urlParts.Suffix = netloc[sepIdx+sepSize(netloc[sepIdx]) : suffixEndIdx]
			domainStartSepIdx = lastIndexAny(netloc[0:sepIdx], labelSeparatorsRuneSet)
			if domainStartSepIdx != -1 { // If there is a SubDomain
				domainStartIdx := domainStartSepIdx + sepSize(netloc[domainStartSepIdx])
				urlParts.Domain = netloc[domainStartIdx:sepIdx]
				urlParts.RegisteredDomain = netloc[domainStartIdx:suffixEndIdx]
			} else {
				urlParts.Domain = netloc[0:sepIdx]
				urlParts.RegisteredDomain = netloc[0:suffixEndIdx]
			}
		} else {
			// Only Suffix exists
			urlParts.Suffix = netloc[0:suffixEndIdx]
		}
	} else {
		domainStartSepIdx = lastIndexAny(netloc[0:suffixEndIdx], labelSeparatorsRuneSet)
		var domainStartIdx int
		if domainStartSepIdx != -1 { // If there is a SubDomain
			domainStartIdx = domainStartSepIdx + sepSize(netloc[domainStartSepIdx])
		}
		urlParts.Domain = netloc[domainStartIdx:suffixEndIdx]
	}
	if !e.IgnoreSubDomains && domainStartSepIdx != -1 { // If SubDomain is to be included
		urlParts.SubDomain = netloc[0:domainStartSepIdx]
	}

	if len(urlParts.Domain) == 0 {
		return urlParts, errors.New("empty domain")
	}
	urlParts.HostType = HostName
	return urlParts, nil
}

// New creates a new *FastTLD using data from a Public Suffix List file.
func New(n SuffixListParams) (*FastTLD, error) {
	extractor := &FastTLD{cacheFilePath: n.CacheFilePath, tldTrie: &trie{}, includePrivateSuffix: n.IncludePrivateSuffix}
	// If cacheFilePath is unreachable, use temporary folder
	if isValid, _ := checkCacheFile(extractor.cacheFilePath); !isValid {
		filesystem := new(afero.OsFs)
		defaultCacheFolderPath := afero.GetTempDir(filesystem, "")
		defaultCacheFilePath := defaultCacheFolderPath + defaultPSLFileName
		defaultCacheFolder, err := filesystem.Open(defaultCacheFolderPath)
		if err != nil {
			// temporary folder not accessible, fallback to hardcoded Public Suffix list
			return newHardcodedPSL(err, n)
		}
		defer defaultCacheFolder.Close()
		extractor.cacheFilePath = defaultCacheFilePath
		isValid, lastModifiedHours := checkCacheFile(extractor.cacheFilePath)
		if !isValid || lastModifiedHours > pslMaxAgeHours {
			// update Public Suffix list cache if it is outdated
			if updateErr := extractor.Update(); updateErr != nil {
				// update failed, fallback to hardcoded Public Suffix list
				return newHardcodedPSL(err, n)
			}
			return extractor, err
		}
	}

	tldTrie, err := trieConstruct(n.IncludePrivateSuffix, extractor.cacheFilePath)
	if err != nil {
		return newHardcodedPSL(err, n)
	}
	extractor.tldTrie = tldTrie
	return extractor, err
}
"##

/-- psl.go -/
def pslGo : List Nat := lines! r##"package fasttld

import (
	"bytes"
	"errors"
	"fmt"
	"log"
	"net/http"
	"os"
	"path/filepath"
	"runtime"
	"strings"
	"time"

	"github.com/spf13/afero"
	"golang.org/x/net/idna"
)

var publicSuffixListSources = []string{
	"https://publicsuffix.org/list/public_suffix_list.dat",
	"https://raw.githubusercontent.com/publicsuffix/list/master/public_suffix_list.dat",
}

type suffixes struct {
	publicSuffixes  []string
	privateSuffixes []string
	allSuffixes     []string
}

func processLine(rawLine string, psl suffixes, isPrivateSuffix bool) (suffixes, bool) {
	line := strings.TrimSpace(rawLine)
	if "// ===BEGIN PRIVATE DOMAINS===" == line {
		isPrivateSuffix = true
	}
	if len(line) == 0 || strings.HasPrefix(line, "//") {
		return psl, isPrivateSuffix
	}
	suffix, err := idna.ToASCII(line)
	if err != nil {
		// skip line if unable to convert to ascii
		log.Println(line, '|', err)
		return psl, isPrivateSuffix
	}
	if isPrivateSuffix {
		psl.privateSuffixes = append(psl.privateSuffixes, suffix)
		if suffix != line {
			// add non-punycode version if it is different from punycode version
			psl.privateSuffixes = append(psl.privateSuffixes, line)
		}
	} else {
		psl.publicSuffixes = append(psl.publicSuffixes, suffix)
		if suffix != line {
			// add non-punycode version if it is different from punycode version
			psl.publicSuffixes = append(psl.publicSuffixes, line)
		}
	}
	psl.allSuffixes = append(psl.allSuffixes, suffix)
	if suffix != line {
		// add non-punycode version if it is different from punycode version
		psl.allSuffixes = append(psl.allSuffixes, line)
	}
	return psl, isPrivateSuffix
}

// getPublicSuffixList retrieves Public Suffixes and Private Suffixes from Public Suffix list located at cacheFilePath.
//
// publicSuffixes: ICANN domains. Example: com, net, org etc.
//
// privateSuffixes: PRIVATE domains. Example: blogspot.co.uk, appspot.com etc.
//
// allSuffixes: Both ICANN and PRIVATE domains.
func getPublicSuffixList(cacheFilePath string) (suffixes, error) {
	var psl suffixes
	b, err := os.ReadFile(cacheFilePath)
	if err != nil {
		log.Println(err)
		return psl, err
	}
	var isPrivateSuffix bool
	for _, line := range strings.Split(string(b), "\n") {
		psl, isPrivateSuffix = processLine(line, psl, isPrivateSuffix)
	}
	return psl, nil
}

// getHardcodedPublicSuffixList retrieves Public Suffixes and Private Suffixes from hardcoded Public Suffix list.
//
// publicSuffixes: ICANN domains. Example: com, net, org etc.
//
// privateSuffixes: PRIVATE domains. Example: blogspot.co.uk, appspot.com etc.
//
// allSuffixes: Both ICANN and PRIVATE domains.
func getHardcodedPublicSuffixList() (suffixes, error) {
	var psl suffixes
	var isPrivateSuffix bool
	for _, line := range strings.Split(hardcodedPSL, "\n") {
		psl, isPrivateSuffix = processLine(line, psl, isPrivateSuffix)
	}
	return psl, nil
}

// newHardcodedPSL creates a new *FastTLD using data from a hardcoded Public Suffix List file.
func newHardcodedPSL(err error, n SuffixListParams) (*FastTLD, error) {
	log.Println(err, "Fallback to hardcoded Public Suffix List")
	tldTrie, err := trieConstruct(n.IncludePrivateSuffix, "")
	return &FastTLD{cacheFilePath: "", tldTrie: tldTrie, includePrivateSuffix: n.IncludePrivateSuffix}, err
}

// downloadFile downloads file from url as byte slice
func downloadFile(url string) ([]byte, error) {
	// Make HTTP GET request
	var bodyBytes []byte
	resp, err := http.Get(url)
	if err != nil {
		return bodyBytes, err
	}
	defer resp.Body.Close()

	if resp.StatusCode == http.StatusOK {
		bodyBytes, err = afero.ReadAll(resp.Body)
	} else {
		err = errors.New("Download failed, HTTP status code : " + fmt.Sprint(resp.StatusCode))
	}
	return bodyBytes, err
}

// getCurrentFilePath returns path to current module file
//
// Similar to os.path.dirname(os.path.realpath(__file__)) in Python
//
// Credits: https://andrewbrookins.com/tech/golang-get-directory-of-the-current-file
func getCurrentFilePath() (string, bool) {
	_, file, _, ok := runtime.Caller(0)
	return filepath.Dir(file), ok
}

// Number of hours elapsed since last modified time of fileinfo.
func fileLastModifiedHours(fileinfo os.FileInfo) float64 {
	return time.Now().Sub(fileinfo.ModTime()).Hours()
}

// update updates the local cache of Public Suffix List
func update(file afero.File,
	publicSuffixListSources []string) error {
	for _, publicSuffixListSource := range publicSuffixListSources {
		// Write GET request body to local file
		if bodyBytes, err := downloadFile(publicSuffixListSource); err != nil {
			log.Println(err)
		} else {
			if !validPSLDelimiters(bodyBytes) {
				continue
			}
			if _, err := file.Seek(0, 0); err != nil {
				log.Println(err)
				continue
			}
			if _, err := file.Write(bodyBytes); err != nil {
				log.Println(err)
				continue
			}
			log.Println("Public Suffix List updated.")
			return nil
		}
	}
	return errors.New("failed to fetch any Public Suffix List from all mirrors")
}

func validPSLDelimiters(contents []byte) bool {
	return bytes.Contains(contents, []byte("// ===BEGIN ICANN DOMAINS===")) &&
		bytes.Contains(contents, []byte("// ===END ICANN DOMAINS===")) &&
		bytes.Contains(contents, []byte("// ===BEGIN PRIVATE DOMAINS===")) &&
		bytes.Contains(contents, []byte("// ===END PRIVATE DOMAINS==="))
}

func checkCacheFile(cacheFilePath string) (bool, float64) {
	cacheFilePath, pathValidErr := filepath.Abs(strings.TrimSpace(cacheFilePath))
	stat, fileinfoErr := os.Stat(cacheFilePath)
	var lastModifiedHours float64
	if fileinfoErr == nil {
		lastModifiedHours = fileLastModifiedHours(stat)
	}

	var validDelimiters bool
	if contents, err := os.ReadFile(cacheFilePath); err == nil {
		validDelimiters = validPSLDelimiters(contents)
	}
	return pathValidErr == nil && fileinfoErr == nil && !stat.IsDir() && validDelimiters, lastModifiedHours
}

// Update updates the default Public Suffix list file and updates its suffix trie using the updated file.
// If cache file path is not the same as the default cache file path, this will be a no-op.
func (f *FastTLD) Update() error {
	filesystem := new(afero.OsFs)
	defaultCacheFilePath := afero.GetTempDir(filesystem, "") + defaultPSLFileName

	if f.cacheFilePath != defaultCacheFilePath {
		return errors.New("No-op. Only default Public Suffix list file can be updated")
	}
	file, err := os.OpenFile(defaultCacheFilePath, os.O_CREATE|os.O_WRONLY, 0644)
	if err != nil {
		return err
	}
	defer file.Close()
	if updateErr := update(file, publicSuffixListSources); updateErr != nil {
		return updateErr
	}
	tldTrie, err := trieConstruct(f.includePrivateSuffix, defaultCacheFilePath)
	if err == nil {
		f.tldTrie = tldTrie
		f.cacheFilePath = defaultCacheFilePath
	}
	return err
}
"##

/-- print.go -/
def printGo : List Nat := lines! r##"package fasttld

import (
	"github.com/fatih/color"
)

// PrintRes pretty-prints URL components from ExtractResult
func PrintRes(url string, res ExtractResult) {
	var leftAttrsFilled = []color.Attribute{color.FgHiYellow, color.Bold}
	var leftAttrsBlank = []color.Attribute{color.FgHiBlack}
	var rightAttrs = []color.Attribute{color.FgHiWhite}

	if len(url) != 0 {
		color.New(leftAttrsFilled...).Print("              url: ")
	} else {
		color.New(leftAttrsBlank...).Print("              url: ")
	}
	color.New(rightAttrs...).Println(url)

	if len(res.Scheme) != 0 {
		color.New(leftAttrsFilled...).Print("           scheme: ")
	} else {
		color.New(leftAttrsBlank...).Print("           scheme: ")
	}
	color.New(rightAttrs...).Println(res.Scheme)

	if len(res.UserInfo) != 0 {
		color.New(leftAttrsFilled...).Print("         userinfo: ")
	} else {
		color.New(leftAttrsBlank...).Print("         userinfo: ")
	}
	color.New(rightAttrs...).Println(res.UserInfo)

	if len(res.SubDomain) != 0 {
		color.New(leftAttrsFilled...).Print("        subdomain: ")
	} else {
		color.New(leftAttrsBlank...).Print("        subdomain: ")
	}
	color.New(rightAttrs...).Println(res.SubDomain)

	if len(res.Domain) != 0 {
		color.New(leftAttrsFilled...).Print("           domain: ")
	} else {
		color.New(leftAttrsBlank...).Print("           domain: ")
	}
	color.New(rightAttrs...).Println(res.Domain)

	if len(res.Suffix) != 0 {
		color.New(leftAttrsFilled...).Print("           suffix: ")
	} else {
		color.New(leftAttrsBlank...).Print("           suffix: ")
	}
	color.New(rightAttrs...).Println(res.Suffix)

	if len(res.RegisteredDomain) != 0 {
		color.New(leftAttrsFilled...).Print("registered domain: ")
	} else {
		color.New(leftAttrsBlank...).Print("registered domain: ")
	}
	color.New(rightAttrs...).Println(res.RegisteredDomain)

	if len(res.Port) != 0 {
		color.New(leftAttrsFilled...).Print("             port: ")
	} else {
		color.New(leftAttrsBlank...).Print("             port: ")
	}
	color.New(rightAttrs...).Println(res.Port)

	if len(res.Path) != 0 {
		color.New(leftAttrsFilled...).Print("             path: ")
	} else {
		color.New(leftAttrsBlank...).Print("             path: ")
	}
	color.New(rightAttrs...).Println(res.Path)

	if res.HostType != 0 {
		color.New(color.FgHiBlue, color.Bold).Print("        host type: ")
	} else {
		color.New(leftAttrsBlank...).Print("        host type: ")
	}
	switch res.HostType {
	case HostName:
		color.New(rightAttrs...).Println("hostname")
	case IPv4:
		color.New(rightAttrs...).Println("ipv4 address")
	case IPv6:
		color.New(rightAttrs...).Println("ipv6 address")
	default:
		color.New(rightAttrs...).Println()
	}

	color.New().Println()
}
"##

/-- cmd/fasttld/extract.go -/
def extractGo : List Nat := lines! r##"package fasttld

import (
	"log"

	"github.com/elliotwutingfeng/go-fasttld"
	"github.com/fatih/color"
	"github.com/spf13/cobra"
)

var includePrivateSuffix, ignoreSubDomains, toPunyCode bool

var extractCmd = &cobra.Command{
	Use:     "extract",
	Aliases: []string{"ext"},
	Short:   "Extracts subcomponents from a URL.",
	Long: `Extracts subcomponents from a URL.

For Example
---
fasttld extract abc.example.com:5000/a/path
---
	`,
	Args: cobra.ExactArgs(1),
	Run: func(cmd *cobra.Command, args []string) {
		extractor, err := fasttld.New(fasttld.SuffixListParams{IncludePrivateSuffix: includePrivateSuffix})
		if err != nil {
			log.Fatal(err)
		}
		res, err := extractor.Extract(fasttld.URLParams{URL: args[0], IgnoreSubDomains: ignoreSubDomains, ConvertURLToPunyCode: toPunyCode})
		if err != nil {
			color.New(color.FgHiRed, color.Bold).Print("Error: ")
			color.New(color.FgHiWhite).Println(err)
		}
		fasttld.PrintRes(args[0], res)
	},
}

func init() {
	extractCmd.Flags().BoolVarP(&includePrivateSuffix, "private-suffix", "p", false, "Include private suffix")
	extractCmd.Flags().BoolVarP(&ignoreSubDomains, "ignore-subdomains", "i", false, "Ignore subdomains")
	extractCmd.Flags().BoolVarP(&toPunyCode, "to-punycode", "t", false, "Convert to punycode")
	rootCmd.AddCommand(extractCmd)
}
"##

end Fasttld.GoLang.Files
