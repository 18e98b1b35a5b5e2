import Verif.Model.Extract

/-!
# A second translation (tests, not proofs)

Generated by tools/gen_port_tests.py.  The expected results come from tools/port.py, a translation of Extract into Python
that was made from the Go text, by the author of the model.  The URLs are random.
-/

namespace Fasttld.Tests.Port
open Fasttld

def rules : List Bytes := [
  [99,111,109],
  [117,107],
  [99,111,46,117,107],
  [42,46,99,107],
  [33,119,119,119,46,99,107],
  [107,111,98,101,46,106,112],
  [42,46,107,111,98,101,46,106,112],
  [33,99,105,116,121,46,107,111,98,101,46,106,112],
  [97,46,98,46,99,46,100],
  [52],
  [120,46,52],
  [228,184,150,231,149,140],
  [120,32,121],
  [42,46,42,46,122,122],
  [33,113,46,122,122],
  [99,107,46,117,107],
  [99,111,109,46,117,107]]

/-- Stand-ins for the IDNA functions, the same as in gen_port_tests.py. -/
def idna : Idna where
  toASCII := some
  lookupASCII := fun s => if s.contains 95 then none else some (s.map fun c => if 65 ≤ c ∧ c ≤ 90 then c + 32 else c)
  toUnicodeErr := fun s => if s.contains 94 then some [98, 97, 100] else none

def row (url : Bytes) (ig pu : Bool) (r : ExtractResult) (e : Option Err) : Bool :=
  match extract idna (buildTrie rules) ⟨url, ig, pu⟩ with
  | .ok x => x = (r, e)
  | .error _ => false

#guard row [32,64] false false
  ⟨[], [], [], [], [], [], [], [], .none⟩ (some .emptyDomain)
#guard row [239,187,191,104,116,116,112,58,47,47,117,58,112,64,107,111,98,101,63,113,64,114] false false
  ⟨[104,116,116,112,58,47,47], [117,58,112], [], [107,111,98,101], [], [], [], [63,113,64,114], .hostName⟩ none
#guard row [255,97,46,98,43,99,45,100,58,47,47,47,47,117,58,112,64,33,119,119,119,46,99,111,109,46,119,119,119,63,113,64,114,226,128] false true
  ⟨[], [], [], [], [], [], [], [], .none⟩ (some .invalidPort)
#guard row [10,104,116,116,112,58,47,47,64,50,53,53,46,48,46,48,46,46,50,53,53,239,189,161,48,46,58,56,48,47,91] true false
  ⟨[104,116,116,112,58,47,47], [], [], [], [], [], [56,48], [47,91], .none⟩ (some .invalidCharacters)
#guard row [226,128,92,92,130,64,118,64,37,50,101,46,99,111,239,189,161,67,79,77,46,120,43,121,227,128,130,47] false false
  ⟨[], [], [], [226,128], [], [], [], [92,92,130,64,118,64,37,50,101,46,99,111,239,189,161,67,79,77,46,120,43,121,227,128,130,47], .hostName⟩ none
#guard row [226,128,139,104,116,116,112,115,58,117,64,228,184,150,231,149,140,46,37,50,101,46,46,37,54,51,111,109,46,119,119,119,46,46] false false
  ⟨[], [104,116,116,112,115,58,117], [], [], [], [], [], [], .none⟩ (some .invalidCharacters)
#guard row [255,97,46,98,43,99,45,100,58,47,47,47,47,117,64,99,111,58,97,35,102,91,45,226,128,139] false false
  ⟨[], [], [], [], [], [], [], [], .none⟩ (some .invalidPort)
#guard row [239,187,191,104,116,116,112,58,47,47,117,64,99,107,92,120,10] false false
  ⟨[104,116,116,112,58,47,47], [117], [], [], [99,107], [], [], [92,120], .none⟩ (some .emptyDomain)
#guard row [255,97,46,98,43,99,45,100,58,47,47,47,47,117,64,91,48,58,102,102,102,102,58,48,58,48,58,49,58,58,49,58,49,93,47,91,10] false false
  ⟨[], [], [], [], [], [], [], [], .none⟩ (some .invalidPort)
#guard row [226,128,139,47,117,64,118,64,91,102,102,102,102,58,48,58,90,58,102,102,102,102,58,48,93,47,93] false false
  ⟨[], [], [], [], [], [], [], [47,117,64,118,64,91,102,102,102,102,58,48,58,90,58,102,102,102,102,58,48,93,47,93], .none⟩ (some .emptyDomain)
#guard row [239,187,191,104,116,116,112,58,47,47,64,50,53,53,46,94,46,48,49,46,42,46,50,53,54,46,45,97,227,128,130,92,120] true false
  ⟨[104,116,116,112,58,47,47], [], [], [], [], [], [], [92,120], .none⟩ (some (.idna [98,97,100]))
#guard row [255,47,117,91,64,91,49,58,102,102,102,102,58,48,58,49,58,58,48,58,49,58,49,93,120,47,91,226,128,139] false false
  ⟨[], [], [], [255], [], [], [], [47,117,91,64,91,49,58,102,102,102,102,58,48,58,49,58,58,48,58,49,58,49,93,120,47,91], .hostName⟩ none
#guard row [92,92,64,99,111,239,189,161,228,184,150,231,149,140,46,67,57,77,46,99,107,46,99,111,109,47,91] false false
  ⟨[92,92], [], [99,111,239,189,161,228,184,150,231,149,140,46,67,57,77], [99,107], [99,111,109], [99,107,46,99,111,109], [], [47,91], .hostName⟩ none
#guard row [239,187,191,48,46,48,37,50,69,48,46,48,47] false false
  ⟨[], [], [48,46,48,37,50,69,48], [48], [], [], [], [47], .hostName⟩ none
#guard row [117,91,64,97,46,227,46,120,46,37,54,51,111,109,227,128,130,45,47,93,226,128,139] false false
  ⟨[], [], [], [], [], [], [], [], .none⟩ (some .openingBracketNotFirst)
#guard row [194,160,117,91,64,50,53,53,46,49,46,50,53,54,46,50,53,53,46,50,53,53,46,92,120,9,32] false false
  ⟨[], [], [], [], [], [], [], [], .none⟩ (some .openingBracketNotFirst)
#guard row [226,128,104,116,116,112,115,58,117,64,118,64,120,32,121,46,50,53,54,46,97,46,197,128,46,196,176,227,128,130,47,93,10] false true
  ⟨[], [226,128,104,116,116,112,115,58,117,64,118], [], [], [], [], [], [47,93], .none⟩ (some .invalidCharacters)
#guard row [104,116,116,112,58,47,47,99,107,37,50,69,94,46,46,99,111,239,188,142,197,128,46,46,48,49,47,93,9,32] false false
  ⟨[104,116,116,112,58,47,47], [], [], [], [], [], [], [47,93], .none⟩ (some (.idna [98,97,100]))
#guard row [32,47,117,47,64,97,45,46,46,119,119,119,239,189,161,99,46,255,46,33,46,46,92,120,32] false false
  ⟨[], [], [], [], [], [], [], [47,117,47,64,97,45,46,46,119,119,119,239,189,161,99,46,255,46,33,46,46,92,120], .none⟩ (some .emptyDomain)
#guard row [46,130,93,58,42,52,120,92,97,64,227] false false
  ⟨[], [], [], [], [], [], [], [], .none⟩ (some .closingWithoutOpening)
#guard row [104,116,116,112,58,47,47,227,128,47,91,32] false false
  ⟨[104,116,116,112,58,47,47], [], [], [227,128], [], [], [], [47,91], .hostName⟩ none
#guard row [9,32,47,47,37,54,51,111,109,46,119,119,119,35,102,91] false true
  ⟨[47,47], [], [99,111,109], [119,119,119], [], [], [], [35,102,91], .hostName⟩ none
#guard row [10,92,92,91,102,102,102,102,58,49,58,48,58,48,58,58,49,58,49,58,48,58,48,46,48,46,49,46,49,46,93,47,91,255] false false
  ⟨[92,92], [], [], [], [], [], [], [], .none⟩ (some .invalidIPv6)
#guard row [37,45,33,128] true true
  ⟨[], [], [], [], [], [], [], [], .none⟩ (some (.badEscape [37,45,33]))
#guard row [9,32,92,92,117,64,118,64,50,53,53,46,48,46,57,46,57,227,128,130,35,102,91,194,160] true true
  ⟨[92,92], [117,64,118], [], [50,53,53,46,48,46,57,46,57], [], [50,53,53,46,48,46,57,46,57], [], [35,102,91], .iPv4⟩ none
#guard row [227] true false
  ⟨[], [], [], [227], [], [], [], [], .hostName⟩ none
#guard row [104,116,116,112,58,47,47,117,64,48,46,49,46,49,46,48,46,226,128,139] false false
  ⟨[104,116,116,112,58,47,47], [117], [], [48,46,49,46,49,46,48], [], [48,46,49,46,49,46,48], [], [], .iPv4⟩ none
#guard row [239,187,191,104,116,116,93,112,58,47,47,117,64,50,53,53,46,50,53,53,46,50,53,53,46,50,53,53,46,47,112,63,113,35,102] false false
  ⟨[], [], [], [], [], [], [], [], .none⟩ (some .closingWithoutOpening)
#guard row [239,187,191,117,58,45,112,64,113,46,100,239,189,161,33,119,119,119,46,35,102,91,255] false false
  ⟨[], [117,58,45,112], [], [], [], [], [], [35,102,91,255], .none⟩ (some .invalidCharacters)
#guard row [104,116,116,112,58,47,47,117,64,118,64,37,122,122,46,99,111,46,99,105,116,121,46,98,46,46,97,58,45,49,92,120,10] false false
  ⟨[104,116,116,112,58,47,47], [117,64,118], [], [], [], [], [], [], .none⟩ (some .invalidPort)
#guard row [9,32,104,116,116,112,58,47,47,117,64,118,64,107,111,98,101,46,99,111,109,92,120,226,128,139] false false
  ⟨[104,116,116,112,58,47,47], [117,64,118], [], [107,111,98,101], [99,111,109], [107,111,98,101,46,99,111,109], [], [92,120], .hostName⟩ none
#guard row [47,47,117,64,119,119,119,46,35,102,91] true false
  ⟨[47,47], [117], [], [119,119,119], [], [], [], [35,102,91], .hostName⟩ none
#guard row [104,116,116,112,58,47,47,117,64,118,64,197,128,46,99,107,46,99,227,128,130,37,50,101,46,33,46,197,128,46,46,58,54,53,53,51,54,255] false false
  ⟨[104,116,116,112,58,47,47], [117,64,118], [], [], [], [], [], [], .none⟩ (some .invalidPort)
#guard row [104,116,116,112,58,47,47,117,58,112,64,91,58,49,58,102,102,102,102,58,48,58,49,58,102,102,102,102,58,58,48,58,49,93,255] false false
  ⟨[104,116,116,112,58,47,47], [117,58,112], [], [], [], [], [], [], .none⟩ (some .invalidIPv6)
#guard row [47,37,227,128,130] false true
  ⟨[], [], [], [], [], [], [], [47,37,227,128,130], .none⟩ (some .emptyDomain)
#guard row [104,116,116,112,58,47,47,117,58,112,64,37,46,49,46,196,176,46,65,239,188,142,107,111,98,101,46,50,53,54,32] false false
  ⟨[104,116,116,112,58,47,47], [117,58,112], [], [], [], [], [], [], .none⟩ (some (.badEscape [37,46,49]))
#guard row [104,116,116,112,58,47,47,117,91,64,33,119,119,119,46,46,33,119,119,119,46,33,119,119,119,47,91,32] true false
  ⟨[104,116,116,112,58,47,47], [], [], [], [], [], [], [], .none⟩ (some .openingBracketNotFirst)
#guard row [255,104,116,116,112,58,47,47,117,58,112,64,99,111,46,46,99,239,189,161,99,111,109,46,120,43,121,46,50,53,54,239,188,142,99,58,43,53,32] false true
  ⟨[], [], [], [], [], [], [], [], .none⟩ (some .invalidPort)
#guard row [239,187,191,104,116,116,112,58,47,47,117,64,118,64,52,46,45,47,112,63,113,35,102,239,187,191] false true
  ⟨[104,116,116,112,58,47,47], [117,64,118], [], [], [], [], [], [47,112,63,113,35,102], .none⟩ (some .invalidCharacters)
#guard row [97,45,46,97,45,46,107,111,98,101,227,128,130,58,43,53,63,113,64,114] false false
  ⟨[], [], [97,45,46,97,45], [107,111,98,101], [], [], [43,53], [63,113,64,114], .hostName⟩ none
#guard row [9,32,65,47,92,97,46,99,111,109,46,196,176,46,107,111,98,101,227,128,130] false false
  ⟨[65,47,92], [], [97,46,99,111,109,46,196,176], [107,111,98,101], [], [], [], [], .hostName⟩ none
#guard row [255,64,227,128,239,188,142,37,46,120,32,121,46,119,119,119,46,46,47,255] false false
  ⟨[], [255], [], [], [], [], [], [47,255], .none⟩ (some (.badEscape [37,46,120]))
#guard row [] false false
  ⟨[], [], [], [], [], [], [], [], .none⟩ (some .emptyDomain)
#guard row [194,160,104,116,116,112,58,47,47,117,64,120,43,121,46,98,46,37,46,35,102,91,194,160] true true
  ⟨[104,116,116,112,58,47,47], [117], [], [], [], [], [], [35,102,91], .none⟩ (some (.badEscape [37,46]))
#guard row [226,128,92,92,117,64,118,64,228,184,150,231,149,140,46,194,160] false true
  ⟨[], [], [], [226,128], [], [], [], [92,92,117,64,118,64,228,184,150,231,149,140,46], .hostName⟩ none
#guard row [104,116,116,112,58,47,47,117,91,64,49,46,50,53,53,46,49,46,49,47] false true
  ⟨[104,116,116,112,58,47,47], [], [], [], [], [], [], [], .none⟩ (some .openingBracketNotFirst)
#guard row [194,160,104,116,116,112,58,47,47,117,58,112,64,255,46,196,176,46,47,91] false false
  ⟨[104,116,116,112,58,47,47], [117,58,112], [255], [196,176], [], [], [], [47,91], .hostName⟩ none
#guard row [42] false true
  ⟨[], [], [], [], [], [], [], [], .none⟩ (some .invalidCharacters)
#guard row [9,32,104,116,116,112,58,47,47,37,46,49,46,48,49,46,95,46,46,99,107,227,128,130,63,113,64,114,32] false false
  ⟨[104,116,116,112,58,47,47], [], [], [], [], [], [], [63,113,64,114], .none⟩ (some (.badEscape [37,46,49]))
#guard row [9,32,255,46,107,111,98,101,227,128,130,45,239,189,161,196,176,239,188,142,99,46,227,128,46,99,111,109,47,112,63,113,35,102,226,128] false false
  ⟨[], [], [255,46,107,111,98,101,227,128,130,45,239,189,161,196,176,239,188,142,99], [227,128], [99,111,109], [227,128,46,99,111,109], [], [47,112,63,113,35,102,226,128], .hostName⟩ none
#guard row [33,52,45,120,92] false false
  ⟨[], [], [], [], [], [], [], [92], .none⟩ (some .invalidCharacters)
#guard row [104,116,116,112,58,47,47,113,46,120,32,121,46,49,92,120,9,32] false true
  ⟨[104,116,116,112,58,47,47], [], [], [], [], [], [], [92,120], .none⟩ (some .invalidCharacters)
#guard row [65,47,92,91,49,58,49,58,49,58,48,58,102,102,102,102,58,49,93,47,112,63,113,35,102,226,128] false false
  ⟨[65,47,92], [], [], [], [], [], [], [], .none⟩ (some .invalidIPv6)
#guard row [194,160,47,47,255,46,106,112,46,107,111,98,101,46,47,10] false true
  ⟨[47,47], [], [255,46,106,112], [107,111,98,101], [], [], [], [47], .hostName⟩ none
#guard row [49,46,228,184,150,231,149,140,46,117,107,46,197,128,46,99,111,109,47] false false
  ⟨[], [], [49,46,228,184,150,231,149,140,46,117,107], [197,128], [99,111,109], [197,128,46,99,111,109], [], [47], .hostName⟩ none
#guard row [194,160,104,116,116,112,58,47,47,64,50,53,53,46,37,50,101,46,95,37,50,69,117,107,46,97,46,45,97,58,43,53,35,102,91] false false
  ⟨[104,116,116,112,58,47,47], [], [], [], [], [], [43,53], [35,102,91], .none⟩ (some .invalidCharacters)
#guard row [130,33,45,92,37,93,33,37] false false
  ⟨[], [], [], [], [], [], [], [92,37,93,33,37], .none⟩ (some .invalidCharacters)
#guard row [9,32,104,116,116,112,58,47,47,64,37,122,122,46,37,122,122,46,45,46,97,47,93] false false
  ⟨[104,116,116,112,58,47,47], [], [], [], [], [], [], [47,93], .none⟩ (some (.badEscape [37,122,122]))
#guard row [226,128,117,64,118,64,107,111,98,101,46,106,112,46,99,111,109,46,46,94,46,37,50,101,46,50,53,53,46,255,46,46,92,120,239,187,191] false false
  ⟨[], [226,128,117,64,118], [], [], [], [], [], [92,120], .none⟩ (some (.idna [98,97,100]))
#guard row [104,116,116,112,115,58,117,58,112,64,50,53,53,46,50,53,53,46,49,47] true false
  ⟨[], [104,116,116,112,115,58,117,58,112], [], [49], [], [], [], [47], .hostName⟩ none
#guard row [194,160,117,58,112,64,196,176,46,99,105,116,121,46,52,46,65,46,106,112,46,58,97,35,102,91,194,160] false false
  ⟨[], [117,58,112], [], [], [], [], [], [], .none⟩ (some .invalidPort)
#guard row [32,65,47,92,117,47,64,99,111,46,37,46,33,119,119,119,46,95,37,50,69,99,111,109,46,46,47,10] false false
  ⟨[65,47,92], [], [], [117], [], [], [], [47,64,99,111,46,37,46,33,119,119,119,46,95,37,50,69,99,111,109,46,46,47], .hostName⟩ none
#guard row [255,97,58,64,47,47,117,64,91,49,58,48,58,102,102,102,102,58,48,58,49,93,120,58,45,48,47,226,128,139] false false
  ⟨[], [255,97,58], [], [], [], [], [], [47,47,117,64,91,49,58,48,58,102,102,102,102,58,48,58,49,93,120,58,45,48,47], .none⟩ (some .emptyDomain)
#guard row [37,92,33,130] false true
  ⟨[], [], [], [], [], [], [], [92,33,130], .none⟩ (some (.badEscape [37]))
#guard row [226,128,139,104,116,116,112,58,47,47,46,120,43,121,46,50,53,54,227,128,130,255,58,227,53,53,51,54,10] false false
  ⟨[104,116,116,112,58,47,47], [], [], [], [], [], [], [], .none⟩ (some .invalidPort)
#guard row [239,187,191,104,116,116,112,58,47,47,117,64,255,46,46,32] true true
  ⟨[104,116,116,112,58,47,47], [117], [], [255], [], [], [], [], .hostName⟩ none
#guard row [104,116,116,112,58,47,47,91,48,58,49,58,102,102,102,102,58,49,58,49,58,102,102,102,102,58,48,58,49,93,255] false false
  ⟨[104,116,116,112,58,47,47], [], [], [], [], [], [], [], .none⟩ (some .trailingAfterIPv6)
#guard row [104,116,116,112,58,47,47,33,46,197,128,46,120,32,121,239,189,161,46,117,107,46,227,46,33,119,119,119,227,128,130,47,112,63,113,35,102,9,32] false false
  ⟨[104,116,116,112,58,47,47], [], [], [], [], [], [], [47,112,63,113,35,102], .none⟩ (some .invalidCharacters)
#guard row [104,116,116,112,58,47,47,45,46,120,46,99,107,46,107,111,98,101,239,188,142,52,47] false false
  ⟨[104,116,116,112,58,47,47], [], [], [], [], [], [], [47], .none⟩ (some .invalidCharacters)
#guard row [10,255,46,107,111,98,101,227,128,37,130,47,112,63,113,35,102] false false
  ⟨[], [], [], [], [], [], [], [47,112,63,113,35,102], .none⟩ (some (.badEscape [37,130]))
#guard row [194,160,104,116,116,112,115,58,64,95,239,189,161,67,79,77,46,99,105,116,121,46,99,107,239,188,142,99,111,109,46,239,46,191] false false
  ⟨[], [104,116,116,112,115,58], [], [], [], [], [], [], .none⟩ (some .invalidCharacters)
#guard row [104,116,116,112,58,47,47,120,46,227,128,46,46,65,46,99,111,227,128,130,33,46,67,79,77,227,128,130,58,45,49,63,113,64,114,255] false true
  ⟨[104,116,116,112,58,47,47], [], [], [], [], [], [], [], .none⟩ (some .invalidPort)
#guard row [9,32,117,58,112,64,49,46,99,111,46,46,32] true false
  ⟨[], [117,58,112], [], [99,111], [], [], [], [], .hostName⟩ none
#guard row [226,128,139,104,116,116,112,58,47,47,117,64,49,46,48,46,48] false false
  ⟨[104,116,116,112,58,47,47], [117], [49,46,48], [48], [], [], [], [], .hostName⟩ none
#guard row [226,128,139,104,116,116,112,58,47,47,117,58,112,64,45,239,189,161,197,128,46,33,119,119,119,46,99,111,47,226,128,139] true false
  ⟨[104,116,116,112,58,47,47], [117,58,112], [], [], [], [], [], [47], .none⟩ (some .invalidCharacters)
#guard row [194,160,104,116,116,112,58,47,47,117,91,64,196,176,46,106,112,227,128,130,99,107,46,46,33,46,99,111,227,128,130,239,187,191] false false
  ⟨[104,116,116,112,58,47,47], [], [], [], [], [], [], [], .none⟩ (some .openingBracketNotFirst)
#guard row [32,117,64,118,64,119,119,119,46,99,105,116,121,46,46,99,46,37,122,122,46,228,184,150,231,149,140,46,197,128,239,188,142,113,47,226,128,139] false false
  ⟨[], [117,64,118], [], [], [], [], [], [47], .none⟩ (some (.badEscape [37,122,122]))
#guard row [47,47,117,58,112,64,117,107,227,128,130,47,93] false false
  ⟨[47,47], [117,58,112], [], [], [117,107], [], [], [47,93], .none⟩ (some .emptyDomain)
#guard row [99] false false
  ⟨[], [], [], [99], [], [], [], [], .hostName⟩ none
#guard row [104,116,116,112,58,47,47,117,64,118,64,49,46,48,46,49,239,188,142,47,227,91,32] false true
  ⟨[104,116,116,112,58,47,47], [117,64,118], [49,46,48], [49], [], [], [], [47,227,91], .hostName⟩ none
#guard row [226,128,139,97,46,98,43,99,45,100,58,47,47,47,47,49,46,48,49,46,50,53,53,46,58,45,49,92,120,226,93,128] false false
  ⟨[97,46,98,43,99,45,100,58,47,47,47,47], [], [], [], [], [], [], [], .none⟩ (some .invalidPort)
#guard row [32,65,47,92,64,99,107,47,93] false true
  ⟨[65,47,92], [], [], [], [99,107], [], [], [47,93], .none⟩ (some .emptyDomain)
#guard row [226,128,117,64,65,46,52,239,189,161,197,128,46,50,53,54,46,107,111,98,101,46,46,35,102,91,10] false false
  ⟨[], [226,128,117], [65,46,52,239,189,161,197,128,46,50,53,54], [107,111,98,101], [], [], [], [35,102,91], .hostName⟩ none
#guard row [117,64,48,46,48,46,48,46,49,47,93,9,32] true false
  ⟨[], [117], [], [48,46,48,46,48,46,49], [], [48,46,48,46,48,46,49], [], [47,93], .iPv4⟩ none
#guard row [128,37,46,99,42] false false
  ⟨[], [], [], [], [], [], [], [], .none⟩ (some (.badEscape [37,46,99]))
#guard row [239,187,191,104,116,116,112,58,47,47,117,64,65,46,227,46,99,107,227,128,130,35,102,91,9,32] false false
  ⟨[104,116,116,112,58,47,47], [117], [], [65], [227,46,99,107], [65,46,227,46,99,107], [], [35,102,91], .hostName⟩ none
#guard row [117,58,112,64,107,111,98,101,46,99,46,119,64,119,46,119,119,119,46,255,46,228,184,150,231,149,140,46,67,79,77,227,128,130,92,120] false false
  ⟨[], [117,58,112,64,107,111,98,101,46,99,46,119], [119,46,119,119,119,46,255,46,228,184,150,231,149,140], [67,79,77], [], [], [], [92,120], .hostName⟩ none
#guard row [64,49,46,50,53,53,46,37,46,57,54,51,111,109,46,255,227,128,130,47,93,226,128] true false
  ⟨[], [], [], [], [], [], [], [47,93,226,128], .none⟩ (some (.badEscape [37,46,57]))
#guard row [9,32,104,116,116,112,115,58,117,58,112,64,91,58,48,58,93,47,112,63,113,35,102,10] true false
  ⟨[], [104,116,116,112,115,58,117,58,112], [], [], [], [], [], [], .none⟩ (some .invalidIPv6)
#guard row [10,117,64,118,64,98,46,228,184,150,231,149,140,46,122,122,46,33,46,106,112,239,189,161,33,46,117,107,47,45,226,128] false true
  ⟨[], [117,64,118], [], [], [], [], [], [47,45,226,128], .none⟩ (some .invalidCharacters)
#guard row [255,47,47,117,91,64,50,53,53,46,49,32,48,46,58,57,57,57,57,57,57,57,57,57,57,57,57,57,57,57,57,57,57,57,57,92,120] false true
  ⟨[], [], [], [255], [], [], [], [47,47,117,91,64,50,53,53,46,49,32,48,46,58,57,57,57,57,57,57,57,57,57,57,57,57,57,57,57,57,57,57,57,57,92,120], .hostName⟩ none
#guard row [91,128] false false
  ⟨[], [], [], [], [], [], [], [], .none⟩ (some .incompleteBrackets)
#guard row [10,65,47,92,91,50,53,53,46,50,53,53,46,48,49,46,50,53,53,63,113,64,114,9,32] false false
  ⟨[65,47,92], [], [], [], [], [], [], [], .none⟩ (some .incompleteBrackets)
#guard row [9,32,117,64,118,64,120,32,121,46,65,46,33,119,119,119,46,65,46,45,46,99,111,109,58,43,53,35,102,91,9,32] false false
  ⟨[], [117,64,118], [], [], [], [], [43,53], [35,102,91], .none⟩ (some .invalidCharacters)
#guard row [227,42,130,63,92,37] false true
  ⟨[], [], [], [], [], [], [], [63,92,37], .none⟩ (some .invalidCharacters)
#guard row [9,32,91,58,48,58,49,58,102,102,102,102,58,102,102,102,102,58,48,58,48,46,49,46,50,53,53,46,50,53,53,46,93,63,113,64,114] true false
  ⟨[], [], [], [], [], [], [], [], .none⟩ (some .invalidIPv6)
#guard row [32,47,119,119,119] false true
  ⟨[], [], [], [], [], [], [], [47,119,119,119], .none⟩ (some .emptyDomain)
#guard row [194,160,104,116,116,112,58,47,47,117,64,118,64,99,107,227,128,130,227,46,227,128,47,91,226,128] false true
  ⟨[104,116,116,112,58,47,47], [117,64,118], [99,107,227,128,130,227], [227,128], [], [], [], [47,91,226,128], .hostName⟩ none
#guard row [104,116,116,112,58,47,47,117,58,112,64,91,58,48,58,48,58,102,102,102,102,58,48,58,102,102,102,102,58,58,102,102,102,58,49,58,93,47,91] false false
  ⟨[104,116,116,112,58,47,47], [117,58,112], [], [], [], [], [], [], .none⟩ (some .invalidIPv6)
#guard row [10,120,32,121,46,46,58,48,48,56,48,47,91,255] false false
  ⟨[], [], [], [], [], [], [48,48,56,48], [47,91,255], .none⟩ (some .invalidCharacters)
#guard row [97,46,98,43,99,45,100,58,47,47,47,47,117,91,64,99,111,46,99,111,35,102,91,226,128,139] false true
  ⟨[97,46,98,43,99,45,100,58,47,47,47,47], [], [], [], [], [], [], [], .none⟩ (some .openingBracketNotFirst)
#guard row [97,91] false true
  ⟨[], [], [], [], [], [], [], [], .none⟩ (some .openingBracketNotFirst)
#guard row [47,47,117,58,112,64,46,37,50,101,46,46,239,187,191] false false
  ⟨[47,47], [117,58,112], [], [], [], [], [], [], .none⟩ (some .invalidCharacters)
#guard row [226,128,139,104,116,116,112,58,47,47,64,113,46,119,119,119,46,197,128,37,50,69,50,53,54,46,197,128,46,67,79,77,46,106,112] false false
  ⟨[104,116,116,112,58,47,47], [], [113,46,119,119,119,46,197,128,37,50,69,50,53,54,46,197,128,46,67,79,77], [106,112], [], [], [], [], .hostName⟩ none
#guard row [104,116,116,112,58,47,47,64,67,79,77,46,99,111,46,120,227,128,130,196,176,46,122,122,46,47,91] false false
  ⟨[104,116,116,112,58,47,47], [], [67,79,77,46,99,111], [120], [196,176,46,122,122], [120,227,128,130,196,176,46,122,122], [], [47,91], .hostName⟩ none
#guard row [117,64,118,64,91,48,58,49,58,102,102,102,102,58,48,58,102,102,102,102,58,49,58,58,102,102,102,102,93,58,56,48,47,91] false false
  ⟨[], [117,64,118], [], [48,58,49,58,102,102,102,102,58,48,58,102,102,102,102,58,49,58,58,102,102,102,102], [], [48,58,49,58,102,102,102,102,58,48,58,102,102,102,102,58,49,58,58,102,102,102,102], [56,48], [47,91], .iPv6⟩ none
#guard row [104,116,116,112,58,47,47,117,58,112,64,117,107,46,94,46,99,105,116,121,227,128,130,9,32] false true
  ⟨[104,116,116,112,58,47,47], [117,58,112], [], [], [], [], [], [], .none⟩ (some .invalidCharacters)
#guard row [104,116,116,112,58,47,47,64,99,107,194,160] false true
  ⟨[104,116,116,112,58,47,47], [], [], [], [99,107], [], [], [], .none⟩ (some .emptyDomain)
#guard row [32,48,49,239,188,142,119,119,119,194,160] false false
  ⟨[], [], [48,49], [119,119,119], [], [], [], [], .hostName⟩ none
#guard row [227,128,64,130,93,42,52,32,47,227,130,58] false false
  ⟨[], [227,128], [], [], [], [], [], [], .none⟩ (some .closingWithoutOpening)
#guard row [92,92,91,48,58,49,58,49,58,48,58,58,48,58,49,58,48,93,58,54,53,53,51,53,255] true false
  ⟨[92,92], [], [], [48,58,49,58,49,58,48,58,58,48,58,49,58,48], [], [48,58,49,58,49,58,48,58,58,48,58,49,58,48], [], [], .iPv6⟩ (some .invalidPort)
#guard row [99,37,99,42,64,46,52] false false
  ⟨[], [99,37,99,42], [], [], [52], [46,52], [], [], .none⟩ (some .emptyDomain)
#guard row [117,64,50,53,54,46,119,119,119,37,50,69,94,227,128,130,63,113,64,114,226,128] true false
  ⟨[], [117], [], [], [], [], [], [63,113,64,114,226,128], .none⟩ (some (.idna [98,97,100]))
#guard row [32,104,116,116,112,58,47,47,48,49,46,48,46,50,53,53,46,92,120,10] false false
  ⟨[104,116,116,112,58,47,47], [], [48,49,46,48], [50,53,53], [], [], [], [92,120], .hostName⟩ none
#guard row [194,160,117,64,49,46,50,53,53,46,48,46,49,46,58,45,48,35,102,91,255] false false
  ⟨[], [117], [], [49,46,50,53,53,46,48,46,49], [], [49,46,50,53,53,46,48,46,49], [45,48], [35,102,91,255], .iPv4⟩ none
#guard row [239,187,191,104,116,116,112,58,47,47,117,58,112,64,37,46,120,32,121,46,97,46,99,111,109,63,113,64,114,10] false false
  ⟨[104,116,116,112,58,47,47], [117,58,112], [], [], [], [], [], [63,113,64,114], .none⟩ (some (.badEscape [37,46,120]))
#guard row [9,32,33,119,119,119,46,97,45,46,58,43,53,63,113,64,114,9,32] false false
  ⟨[], [], [], [], [], [], [43,53], [63,113,64,114], .none⟩ (some .invalidCharacters)
#guard row [194,160,117,64,118,64,91,49,58,102,102,102,102,58,58,102,102,102,102,58,49,58,48,58,48,58,49,93,58,48,48,56,48,92,120,226,128] false false
  ⟨[], [117,64,118], [], [49,58,102,102,102,102,58,58,102,102,102,102,58,49,58,48,58,48,58,49], [], [49,58,102,102,102,102,58,58,102,102,102,102,58,49,58,48,58,48,58,49], [48,48,56,48], [92,120,226,128], .iPv6⟩ none
#guard row [239,187,191,91,49,58,49,58,49,58,48,58,48,58,102,102,102,102,93,92,120,226,128,139] true false
  ⟨[], [], [], [], [], [], [], [], .none⟩ (some .invalidIPv6)
#guard row [9,32,104,116,116,112,58,47,47,117,64,197,128,46,33,46,48,49,46,119,119,119,46,46,58,43,53,9,32] false false
  ⟨[104,116,116,112,58,47,47], [117], [], [], [], [], [43,53], [], .none⟩ (some .invalidCharacters)
#guard row [226,128,117,58,112,64,48,46,46,49,46,49,46,49,227,128,63,113,64,114,10] true false
  ⟨[], [226,128,117,58,112], [], [], [], [], [], [63,113,64,114], .none⟩ (some .invalidCharacters)
#guard row [255,64,37,54,51,111,109,46,113,46,117,107,227,128,130,99,46,37,50,101,46,99,107,227,128,130,58,43,53,32] true true
  ⟨[], [255], [], [], [], [], [43,53], [], .none⟩ (some .consecutiveSeparators)
#guard row [92,92,119,119,119,46,49,46,107,111,98,101,46,106,112,47,91,194,160] false false
  ⟨[92,92], [], [], [119,119,119], [49,46,107,111,98,101], [119,119,119,46,49,46,107,111,98,101], [], [47,91], .hostName⟩ none
#guard row [104,116,116,112,58,47,47,120,46,100,46,48,49,46,228,184,150,231,149,140,46,197,128,227,128,130,58,43,53,47,32] false false
  ⟨[104,116,116,112,58,47,47], [], [120,46,100,46,48,49,46,228,184,150,231,149,140], [197,128], [], [], [43,53], [47], .hostName⟩ none
#guard row [226,128,139,64,97,45,46,196,176,46,46,58,45,48,47,93,239,187,191] false false
  ⟨[], [], [97,45], [196,176], [], [], [45,48], [47,93], .hostName⟩ none
#guard row [9,32,47,47,117,64,118,64,99,105,116,121,46,46,113,227,128,130,58,48,48,56,48,35,102,91,226,128,139] false false
  ⟨[47,47], [117,64,118], [], [], [], [], [48,48,56,48], [35,102,91], .none⟩ (some .invalidCharacters)
#guard row [92,92,99,33,64,46,91] false false
  ⟨[92,92], [99,33], [], [], [], [], [], [], .none⟩ (some .openingBracketNotFirst)
#guard row [227,37,46,130,97] false false
  ⟨[], [], [], [], [], [], [], [], .none⟩ (some (.badEscape [37,46,130]))
#guard row [64,64,99,63,130] true false
  ⟨[], [64], [], [99], [], [], [], [63,130], .hostName⟩ none
#guard row [65,47,92,117,58,112,64,37,50,101,46,94,46,117,107,227,128,130,58,54,53,53,51,53] true false
  ⟨[65,47,92], [117,58,112], [], [], [], [], [54,53,53,51,53], [], .none⟩ (some (.idna [98,97,100]))
#guard row [92,92,117,64,118,64,45,46,120,227,128,130,45,97,46,45,97,46,99,107,46,42,46,46,122,122,46,46,47,93] false false
  ⟨[92,92], [117,64,118], [], [], [], [], [], [47,93], .none⟩ (some .consecutiveSeparators)
#guard row [117,64,118,64,67,79,77,46,46,228,184,150,231,149,140,46,97,45,46,255,46,95,46,120,43,121,58,54,53,53,51,53,92,120] true false
  ⟨[], [117,64,118], [], [], [], [], [54,53,53,51,53], [92,120], .none⟩ (some .invalidCharacters)
#guard row [9,32,104,116,116,112,58,47,47,113,46,37,54,51,111,109,46,227,128,46,122,122,46,46,45,97,227,128,130,120,43,121,46,99,105,116,121,9,32] false false
  ⟨[104,116,116,112,58,47,47], [], [], [], [], [], [], [], .none⟩ (some .invalidCharacters)
#guard row [37,54,51,111,109,37,50,69,196,176,58,56,48,35,102,91,32] false false
  ⟨[], [], [], [37,54,51,111,109,37,50,69,196,176], [], [], [56,48], [35,102,91], .hostName⟩ none
#guard row [117,64,91,58,49,58,48,46,48,46,50,53,53,46,49,93,93,58,48,48,56,48,47,91] false false
  ⟨[], [117], [], [], [], [], [], [], .none⟩ (some .invalidIPv6)
#guard row [104,116,116,112,58,47,47,117,58,112,64,91,58,48,58,48,58,102,102,102,102,58,48,93,47,91,10] false true
  ⟨[104,116,116,112,58,47,47], [117,58,112], [], [], [], [], [], [], .none⟩ (some .invalidIPv6)
#guard row [45] false false
  ⟨[], [], [], [], [], [], [], [], .none⟩ (some .invalidCharacters)
#guard row [226,128,139,117,64,118,64,100,46,45,58,45,49,47,91] true false
  ⟨[], [117,64,118], [], [], [], [], [], [], .none⟩ (some .invalidPort)
#guard row [239,187,191,104,116,116,112,58,47,47,64,100,46] false false
  ⟨[104,116,116,112,58,47,47], [], [], [100], [], [], [], [], .hostName⟩ none
#guard row [64,119,119,119,46,228,184,150,231,149,140,46,107,111,98,101,46,50,53,53,239,188,142,106,112,46,97,47,93,239,187,191] false false
  ⟨[], [], [119,119,119,46,228,184,150,231,149,140,46,107,111,98,101,46,50,53,53,239,188,142,106,112], [97], [], [], [], [47,93], .hostName⟩ none
#guard row [255,117,58,112,64,50,53,53,46,49,46,50,53,53,227,128,130,50,53,53,35,102,91,239,187,191] true false
  ⟨[], [255,117,58,112], [], [50,53,53,46,49,46,50,53,53,227,128,130,50,53,53], [], [50,53,53,46,49,46,50,53,53,227,128,130,50,53,53], [], [35,102,91], .iPv4⟩ none
#guard row [32,65,47,92,117,64,118,64,33,119,119,119,239,189,161,52,46,52,46,119,119,119,46,46,58,54,53,53,51,53,47,93,239,187,191] false false
  ⟨[65,47,92], [117,64,118], [], [], [], [], [54,53,53,51,53], [47,93], .none⟩ (some .invalidCharacters)
#guard row [239,187,191,104,116,116,112,58,47,47,50,53,53,46,97,46,46,37,54,51,111,109,46,33,119,119,119,46,120,43,121,46,122,122,46,46,47,9,32] false true
  ⟨[104,116,116,112,58,47,47], [], [], [], [], [], [], [47], .none⟩ (some .invalidCharacters)
#guard row [226,128,139,104,116,116,112,115,58,117,64,57,46,50,53,53,46,48,46,48,49,46] true true
  ⟨[], [104,116,116,112,115,58,117], [], [48,49], [], [], [], [], .hostName⟩ none
#guard row [] false true
  ⟨[], [], [], [], [], [], [], [], .none⟩ (some .emptyDomain)
#guard row [48,194,160,117,58,112,64,49,47,91] false true
  ⟨[], [48,194,160,117,58,112], [], [49], [], [], [], [47,91], .hostName⟩ none
#guard row [117,64,100,46,50,53,53,37,50,69,33,119,119,119,46,37,54,51,111,109,46,99,107,46,100,227,128,130,46,58,48,48,56,48,239,187,191] false false
  ⟨[], [117], [], [], [], [], [48,48,56,48], [], .none⟩ (some .invalidCharacters)
#guard row [104,116,116,112,58,47,47,64,106,112,46,255,227,128,130,58,54,53,53,51,54,47,91,239,187,191] true true
  ⟨[104,116,116,112,58,47,47], [], [], [], [], [], [], [], .none⟩ (some .invalidPort)
#guard row [194,160,65,47,92,117,64,118,64,49,46,49,46,50,53,53,46,49,46] false false
  ⟨[65,47,92], [117,64,118], [], [49,46,49,46,50,53,53,46,49], [], [49,46,49,46,50,53,53,46,49], [], [], .iPv4⟩ none
#guard row [194,160,47,47,117,64,118,64,49,46,49,46,48,46,48,46,47] false false
  ⟨[47,47], [117,64,118], [], [49,46,49,46,48,46,48], [], [49,46,49,46,48,46,48], [], [47], .iPv4⟩ none
#guard row [104,116,116,112,58,47,47,117,64,118,64,98,46,122,122,46,50,53,53,46,255,46,45,37,50,69,197,128,46,52,92,120,226,128,139] false true
  ⟨[104,116,116,112,58,47,47], [117,64,118], [98,46,122,122,46,50,53,53,46,255,46,45], [197,128], [52], [197,128,46,52], [], [92,120], .hostName⟩ none
#guard row [226,128,48,46,49,46,49,46,50,53,53,46,49,63,113,64,114,194,160] false true
  ⟨[], [], [226,128,48,46,49,46,49,46,50,53,53], [49], [], [], [], [63,113,64,114], .hostName⟩ none
#guard row [239,187,191,65,47,92,117,47,64,94,46,37,54,51,111,109,239,189,161,42,239,189,161,239,188,142,106,112,46,48,49,46,33,47,112,63,113,35,102,32] false true
  ⟨[65,47,92], [], [], [117], [], [], [], [47,64,94,46,37,54,51,111,109,239,189,161,42,239,189,161,239,188,142,106,112,46,48,49,46,33,47,112,63,113,35,102], .hostName⟩ none
#guard row [255,64,228,184,150,231,149,140,46,99,105,116,121,46,65,46,99,107,58,45,48] false false
  ⟨[], [255], [228,184,150,231,149,140], [99,105,116,121], [65,46,99,107], [99,105,116,121,46,65,46,99,107], [45,48], [], .hostName⟩ none
#guard row [10,104,116,116,112,58,47,47,117,64,118,64,95,46,113,46,227,128,46,107,111,98,101,46,92,120] false false
  ⟨[104,116,116,112,58,47,47], [117,64,118], [], [], [], [], [], [92,120], .none⟩ (some .invalidCharacters)
#guard row [47,47,64,48,46,48,46,50,53,53,46,48,46,47,93,32] true false
  ⟨[47,47], [], [], [48,46,48,46,50,53,53,46,48], [], [48,46,48,46,50,53,53,46,48], [], [47,93], .iPv4⟩ none
#guard row [10,65,47,92,119,119,119,46,107,111,98,101,47,112,63,113,35,102,239,187,191] false false
  ⟨[65,47,92], [], [119,119,119], [107,111,98,101], [], [], [], [47,112,63,113,35,102], .hostName⟩ none
#guard row [104,116,116,112,58,47,47,117,64,118,64,37,46,120,43,121,46,120,32,121,46,99,111,226,128,139] true true
  ⟨[104,116,116,112,58,47,47], [117,64,118], [], [], [], [], [], [], .none⟩ (some (.badEscape [37,46,120]))
#guard row [194,160,97,46,98,43,99,45,100,58,47,47,47,47,33,119,119,119,46,226,128] false false
  ⟨[97,46,98,43,99,45,100,58,47,47,47,47], [], [], [], [], [], [], [], .none⟩ (some .invalidCharacters)
#guard row [65,46,52,46,228,184,150,231,149,140,227,128,130,49,46,100,46,122,122,10] false false
  ⟨[], [], [65,46,52,46,228,184,150,231,149,140], [49], [100,46,122,122], [49,46,100,46,122,122], [], [], .hostName⟩ none
#guard row [194,160,104,116,116,112,58,47,47,117,64,50,53,53,37,50,69,49,46,49,46,50,53,54,46,63,113,64,114,226,128,139] false false
  ⟨[104,116,116,112,58,47,47], [117], [50,53,53,37,50,69,49,46,49], [50,53,54], [], [], [], [63,113,64,114], .hostName⟩ none
#guard row [10,91,49,58,102,102,102,102,58,49,58,48,58,102,102,102,102,58,58,49,93,35,102,91,9,32] false false
  ⟨[], [], [], [49,58,102,102,102,102,58,49,58,48,58,102,102,102,102,58,58,49], [], [49,58,102,102,102,102,58,49,58,48,58,102,102,102,102,58,58,49], [], [35,102,91], .iPv6⟩ none
#guard row [9,32,64,197,128,46,33,46,99,105,116,121,46,113,46,227,58,43,53,92,120,58,128,139] false true
  ⟨[], [], [], [], [], [], [43,53], [92,120,58,128,139], .none⟩ (some .invalidCharacters)
#guard row [194,160,104,116,116,112,58,47,47,64,48,49,46,117,107,227,128,130,92,120,226,128,139] false false
  ⟨[104,116,116,112,58,47,47], [], [], [48,49], [117,107], [48,49,46,117,107], [], [92,120], .hostName⟩ none
#guard row [226,128,139,47,47,117,47,64,122,122,46,107,111,98,101,92,120,239,187,191] false true
  ⟨[47,47], [], [], [117], [], [], [], [47,64,122,122,46,107,111,98,101,92,120], .hostName⟩ none
#guard row [239,187,191,104,116,116,112,115,58,117,64,118,64,99,107,227,128,130,47,91] true true
  ⟨[], [104,116,116,112,115,58,117,64,118], [], [], [99,107], [], [], [47,91], .none⟩ (some .emptyDomain)
#guard row [226,128,139,104,116,116,112,58,47,47,117,58,112,64,97,46,120,43,121,46,117,107,58,45,48,47,91,239,187,191] false true
  ⟨[104,116,116,112,58,47,47], [117,58,112], [], [], [], [], [45,48], [47,91], .none⟩ (some .invalidCharacters)
#guard row [226,128,139,104,116,116,112,58,47,47,117,58,112,64,95,46,117,107,46,42,46,42,46,98,46,37,46,99,107,92,120,239,187,191] true true
  ⟨[104,116,116,112,58,47,47], [117,58,112], [], [], [], [], [], [92,120], .none⟩ (some (.badEscape [37,46,99]))
#guard row [32,65,47,92,117,64,118,64,227,239,188,45,142,37,50,101,46,97,46,99,111,109,46,226,128,139] false false
  ⟨[65,47,92], [117,64,118], [227,239,188,45,142,37,50,101], [97], [99,111,109], [97,46,99,111,109], [], [], .hostName⟩ none
#guard row [239,187,191,117,64,118,64,117,107,10] false false
  ⟨[], [117,64,118], [], [], [117,107], [], [], [], .none⟩ (some .emptyDomain)
#guard row [117,64,118,64,106,112,255] false false
  ⟨[], [117,64,118], [], [106,112,255], [], [], [], [], .hostName⟩ none
#guard row [9,32,104,116,116,112,58,47,47,98,37,50,69,37,122,122,227,128,130,194,160] true false
  ⟨[104,116,116,112,58,47,47], [], [], [], [], [], [], [], .none⟩ (some (.badEscape [37,122,122]))
#guard row [9,32,104,116,116,112,58,47,47,91,58,102,102,102,102,58,57,46,48,46,49,46,48,46,46,93,63,113,64,114,10] false true
  ⟨[104,116,116,112,58,47,47], [], [], [], [], [], [], [], .none⟩ (some .invalidIPv6)
#guard row [93,120] false true
  ⟨[], [], [], [], [], [], [], [], .none⟩ (some .closingWithoutOpening)
#guard row [32,104,116,116,112,58,47,47,117,64,107,111,98,101,46,106,112,46,197,128,46,99,107,58,45,48,35,102,91,194,160] false true
  ⟨[104,116,116,112,58,47,47], [117], [107,111,98,101], [106,112], [197,128,46,99,107], [106,112,46,197,128,46,99,107], [45,48], [35,102,91], .hostName⟩ none
#guard row [194,160,104,116,116,112,58,47,47,117,64,42,46,33,119,119,119,46,228,184,150,231,149,140,46,113,46,197,128,47,112,63,113,35,102,226,128,139] false true
  ⟨[104,116,116,112,58,47,47], [117], [], [], [], [], [], [47,112,63,113,35,102], .none⟩ (some .invalidCharacters)
#guard row [10,37,122,122,46,120,32,121,46,98,46,46,92,120,255] false true
  ⟨[], [], [], [], [], [], [], [92,120,255], .none⟩ (some (.badEscape [37,122,122]))
#guard row [33,42] false false
  ⟨[], [], [], [], [], [], [], [], .none⟩ (some .invalidCharacters)
#guard row [239,187,191,67,97,79,77,46,119,119,119,46,47,91,10] false true
  ⟨[], [], [99,97,111,109], [119,119,119], [], [], [], [47,91], .hostName⟩ none
#guard row [10,255,64,94,239,189,161,106,112,239,189,161,106,112,194,160] false true
  ⟨[], [255], [], [], [], [], [], [], .none⟩ (some .invalidCharacters)
#guard row [104,116,116,112,58,47,47,122,122,47,9,32] false false
  ⟨[104,116,116,112,58,47,47], [], [], [], [122,122], [], [], [47], .none⟩ (some .emptyDomain)
#guard row [46,64] false false
  ⟨[], [46], [], [], [], [], [], [], .none⟩ (some .emptyDomain)
#guard row [117,64,118,64,113,46,122,122,227,128,130,47,226,128,139] false false
  ⟨[], [117,64,118], [], [113], [122,122], [113,46,122,122], [], [47], .hostName⟩ none
#guard row [47,47,117,64,120,46,46,94,239,189,161,37,50,101,46,95,255] true false
  ⟨[47,47], [117], [], [], [], [], [], [], .none⟩ (some (.idna [98,97,100]))
#guard row [117,91,64,65,46,107,111,98,101,227,128,130,47,93,226,128,139] false true
  ⟨[], [], [], [], [], [], [], [], .none⟩ (some .openingBracketNotFirst)
#guard row [64,91,58,48,58,49,58,48,58,102,102,102,102,58,48,58,49,58,102,102,102,102,50,53,53,46,50,53,53,46,49,46,50,53,53,93,239,187,191] false true
  ⟨[], [], [], [], [], [], [], [], .none⟩ (some .invalidIPv6)
#guard row [32,97,46,98,43,99,45,100,58,47,47,47,47,45,46,37,122,122,239,188,142,99,105,116,121,227,128,130,100,46,52,226,128,139] false false
  ⟨[97,46,98,43,99,45,100,58,47,47,47,47], [], [], [], [], [], [], [], .none⟩ (some (.badEscape [37,122,122]))
#guard row [10,117,64,50,53,53,46,33,119,119,119,46,49,239,189,161,94,37,50,69,95,46,227,46,99,111,109,227,128,130] false true
  ⟨[], [117], [], [], [], [], [], [], .none⟩ (some .emptyDomain)
#guard row [32,104,116,116,112,58,47,47,117,64,94,46,99,111,109,46,46,92,120,226,128,139] false false
  ⟨[104,116,116,112,58,47,47], [117], [], [], [], [], [], [92,120], .none⟩ (some (.idna [98,97,100]))
#guard row [65,47,92,98,239,189,161,120,43,121,46,106,112,46,99,111] false true
  ⟨[65,47,92], [], [], [], [], [], [], [], .none⟩ (some .invalidCharacters)
#guard row [226,128,139,58,57,47,47,64,227,128,46,107,111,98,101,46,227,128,46,106,112,46,46,47,194,160] false false
  ⟨[], [], [], [], [], [], [57], [47,47,64,227,128,46,107,111,98,101,46,227,128,46,106,112,46,46,47], .none⟩ (some .emptyDomain)
#guard row [226,128,139,104,116,116,112,58,47,47,117,58,112,64,117,107,46,99,111,109,58,48,48,56,48,47,93] false false
  ⟨[104,116,116,112,58,47,47], [117,58,112], [], [117,107], [99,111,109], [117,107,46,99,111,109], [48,48,56,48], [47,93], .hostName⟩ none
#guard row [239,187,191,104,116,116,112,58,47,47,117,64,118,64,49,46,50,53,53,46,50,53,53,46,58,48,48,56,48,47,112,63,113,35,102,239,187,191] true false
  ⟨[104,116,116,112,58,47,47], [117,64,118], [], [50,53,53], [], [], [48,48,56,48], [47,112,63,113,35,102], .hostName⟩ none
#guard row [32,64,37,50,101,46,120,227,128,130,94,46,95,46,67,79,77,46,99,111,109,63,113,64,114,9,32] false false
  ⟨[], [], [], [], [], [], [], [63,113,64,114], .none⟩ (some (.idna [98,97,100]))
#guard row [32,65,47,92,117,64,50,53,54,46,119,119,119,46,117,107,227,128,130,106,112,46,37,54,51,111,109,227,128,130,58,45,48,92,120,9,32] false true
  ⟨[65,47,92], [117], [50,53,54,46,119,119,119,46,117,107], [106,112], [99,111,109], [106,112,46,99,111,109], [45,48], [92,120], .hostName⟩ none
#guard row [194,160,104,116,116,112,58,47,47,117,64,97,227,128,130,98,46,227,128,46,255,46,94,46,99,107,46,46,32] false false
  ⟨[104,116,116,112,58,47,47], [117], [], [], [], [], [], [], .none⟩ (some (.idna [98,97,100]))
#guard row [226,128,139,64,50,53,53,46,48,46,48,46,49,46,92,120,32] false true
  ⟨[], [], [], [50,53,53,46,48,46,48,46,49], [], [50,53,53,46,48,46,48,46,49], [], [92,120], .iPv4⟩ none
#guard row [194,160,117,64,118,64,196,176,46,99,105,116,121,227,128,130,227,128,46,239,188,142,99,111,46,46,58,54,53,53,51,53,47,93,32] false true
  ⟨[], [117,64,118], [], [], [], [], [54,53,53,51,53], [47,93], .none⟩ (some .invalidCharacters)
#guard row [239,187,191,104,116,116,112,58,47,47,117,64,118,64,94,227,128,130,120,46,46,255,46,37,54,51,111,109,46,45,46,99,105,116,121,46,47,93,32] false false
  ⟨[104,116,116,112,58,47,47], [117,64,118], [], [], [], [], [], [47,93], .none⟩ (some (.idna [98,97,100]))
#guard row [10,104,116,116,112,58,47,47,64,98,46,45,97,46,99,105,116,121,227,128,130,58,43,53,35,102,91] false true
  ⟨[104,116,116,112,58,47,47], [], [98,46,45,97], [99,105,116,121], [], [], [43,53], [35,102,91], .hostName⟩ none
#guard row [9,32,104,116,116,112,58,47,47,64,99,111,109,46,99,105,116,121,227,128,130,37,46,45,46,106,112,47,93,226,128] false true
  ⟨[104,116,116,112,58,47,47], [], [], [], [], [], [], [47,93,226,128], .none⟩ (some (.badEscape [37,46,45]))
#guard row [91,102,102,102,102,58,49,58,48,58,48,58,58,102,102,102,102,58,48,58,102,102,102,102,93,47,112,63,113,35,102,255] false false
  ⟨[], [], [], [102,102,102,102,58,49,58,48,58,48,58,58,102,102,102,102,58,48,58,102,102,102,102], [], [102,102,102,102,58,49,58,48,58,48,58,58,102,102,102,102,58,48,58,102,102,102,102], [], [47,112,63,113,35,102,255], .iPv6⟩ none
#guard row [104,116,116,112,58,47,47,64,65,46,99,111,109,46,113,46,106,112,46,119,119,119,58,45,48] false false
  ⟨[104,116,116,112,58,47,47], [], [65,46,99,111,109,46,113,46,106,112], [119,119,119], [], [], [45,48], [], .hostName⟩ none
#guard row [32,92,92,117,58,112,64,37,50,101,227,128,130,46,45,97,194,160] false true
  ⟨[92,92], [117,58,112], [], [], [], [], [], [], .none⟩ (some .invalidCharacters)
#guard row [65,47,92,37,122,122,46,67,79,77,227,128,130,100,46,227,46,50,53,53,46,48,49,239,188,142,106,112,58,43,53,92,120,32] true false
  ⟨[65,47,92], [], [], [], [], [], [43,53], [92,120], .none⟩ (some (.badEscape [37,122,122]))
#guard row [226,128,139,47,47,64,99,107,92,120,226,128,139] true false
  ⟨[47,47], [], [], [], [99,107], [], [], [92,120], .none⟩ (some .emptyDomain)
#guard row [10,104,116,116,112,115,58,117,64,118,64,117,107,46,227,58,45,48,47] false true
  ⟨[], [104,116,116,112,115,58,117,64,118], [117,107], [227], [], [], [45,48], [47], .hostName⟩ none
#guard row [32,104,116,116,112,58,47,47,117,58,112,64,99,107,46,46,226,128] false false
  ⟨[104,116,116,112,58,47,47], [117,58,112], [], [], [], [], [], [], .none⟩ (some .invalidCharacters)
#guard row [97,46,98,43,99,45,100,58,47,47,47,47,37,54,51,111,109,10] false false
  ⟨[97,46,98,43,99,45,100,58,47,47,47,47], [], [], [], [37,54,51,111,109], [], [], [], .none⟩ (some .emptyDomain)
#guard row [104,116,116,112,58,47,47,117,58,112,64,120,46,37,37,50,69,227,46,99,111,47,93,226,128] true false
  ⟨[104,116,116,112,58,47,47], [117,58,112], [], [], [], [], [], [47,93,226,128], .none⟩ (some (.badEscape [37,37,50]))
#guard row [10,104,116,116,112,58,47,47,117,64,118,64,99,46,227,128,37,93,69,52,46,37,54,51,111,109,63,113,64,114,9,32] false false
  ⟨[104,116,116,112,58,47,47], [117,64,118], [], [], [], [], [], [], .none⟩ (some .closingWithoutOpening)
#guard row [10,104,116,116,112,58,47,47,117,58,112,64,50,53,54,227,128,130,58,45,48,92,120,10] false false
  ⟨[104,116,116,112,58,47,47], [117,58,112], [], [50,53,54], [], [], [45,48], [92,120], .hostName⟩ none
#guard row [104,116,116,112,58,47,47,255,46,37,46,227,128,46,117,107,46,49,46,46,94,46,119,119,119,63,113,64,114] false true
  ⟨[104,116,116,112,58,47,47], [], [], [], [], [], [], [63,113,64,114], .none⟩ (some (.badEscape [37,46,227]))
#guard row [194,160,47,47,91,48,58,48,58,48,58,102,102,102,102,58,48,58,102,102,102,102,58,49,93,9,32] true true
  ⟨[47,47], [], [], [], [], [], [], [], .none⟩ (some .invalidIPv6)
#guard row [239,187,191,97,46,98,43,99,45,100,58,47,47,47,47,99,111,109,46,32] false false
  ⟨[97,46,98,43,99,45,100,58,47,47,47,47], [], [], [], [99,111,109], [], [], [], .none⟩ (some .emptyDomain)
#guard row [239,187,191,104,116,116,112,58,47,47,117,58,112,64,49,46,95,46,117,107,46,97,46,99,47,111,46,122,122,46,99,111,109,47,93] false true
  ⟨[104,116,116,112,58,47,47], [117,58,112], [], [], [], [], [], [47,111,46,122,122,46,99,111,109,47,93], .none⟩ (some .emptyDomain)
#guard row [9,32,64,50,53,53,46,57,46,49,46,49,46,194,160] true true
  ⟨[], [], [], [50,53,53,46,57,46,49,46,49], [], [50,53,53,46,57,46,49,46,49], [], [], .iPv4⟩ none
#guard row [32,104,116,116,112,58,47,47,50,53,53,46,49,46,50,53,53,46,48,46,47] false false
  ⟨[104,116,116,112,58,47,47], [], [], [50,53,53,46,49,46,50,53,53,46,48], [], [50,53,53,46,49,46,50,53,53,46,48], [], [47], .iPv4⟩ none
#guard row [64,91,48,58,102,102,102,102,58,48,58,58,102,102,102,102,58,49,58,102,102,102,102,58,102,102,102,102,93,58,56,48,35,102,91,10] false true
  ⟨[], [], [], [48,58,102,102,102,102,58,48,58,58,102,102,102,102,58,49,58,102,102,102,102,58,102,102,102,102], [], [48,58,102,102,102,102,58,48,58,58,102,102,102,102,58,49,58,102,102,102,102,58,102,102,102,102], [56,48], [35,102,91], .iPv6⟩ none
#guard row [194,160,92,92,117,64,97,45,46,33,46,99,111,46,65,227,128,130,42,46,99,105,116,121,58,54,53,53,51,54,47,91,10] false true
  ⟨[92,92], [117], [], [], [], [], [], [], .none⟩ (some .invalidPort)
#guard row [194,160,97,46,98,43,99,45,100,58,47,47,47,47,37,50,101,45,189,161,107,111,98,101,46] false false
  ⟨[97,46,98,43,99,45,100,58,47,47,47,47], [], [], [37,50,101,45,189,161,107,111,98,101], [], [], [], [], .hostName⟩ none
#guard row [117,58,112,64,99,111,46,107,111,98,101,46,65,46,99,111,46,46,47,112,63,113,35,102,255] false true
  ⟨[], [117,58,112], [99,111,46,107,111,98,101,46,97], [99,111], [], [], [], [47,112,63,113,35,102,255], .hostName⟩ none
#guard row [10,104,116,116,112,58,47,47,117,64,48,46,48,46,50,53,53,46,50,53,53,46,58,54,53,53,51,53,63,113,64,114,255] false false
  ⟨[104,116,116,112,58,47,47], [117], [], [48,46,48,46,50,53,53,46,50,53,53], [], [48,46,48,46,50,53,53,46,50,53,53], [54,53,53,51,53], [63,113,64,114,255], .iPv4⟩ none
#guard row [10,104,116,116,112,58,47,47,117,58,112,64,91,49,58,93,47,91,194,160] false true
  ⟨[104,116,116,112,58,47,47], [117,58,112], [], [], [], [], [], [], .none⟩ (some .invalidIPv6)
#guard row [117,64,197,128,46,47,57,63,113,35,102,255] false true
  ⟨[], [117], [], [197,128], [], [], [], [47,57,63,113,35,102,255], .hostName⟩ none
#guard row [255,117,64,118,64,98,46,45,97,46,50,53,54,46,97,45,239,188,142,49,46,48,49,239,188,142,196,176,46,46] false true
  ⟨[], [255,117,64,118], [98,46,45,97,46,50,53,54,46,97,45,239,188,142,49,46,48,49], [196,176], [], [], [], [], .hostName⟩ none
#guard row [104,116,116,112,58,47,47,117,58,112,64,98,46,97,46,117,107,46,99,107,227,128,130,99,107,92,120] false false
  ⟨[104,116,116,112,58,47,47], [117,58,112], [98,46,97], [117,107], [99,107,227,128,130,99,107], [117,107,46,99,107,227,128,130,99,107], [], [92,120], .hostName⟩ none
#guard row [104,116,116,112,58,47,47,120,32,121,46,37,122,122,46,117,107,46,228,184,150,231,149,140,226,128,139] true true
  ⟨[104,116,116,112,58,47,47], [], [], [], [], [], [], [], .none⟩ (some (.badEscape [37,122,122]))
#guard row [226,128,139,104,116,116,112,58,47,47,117,58,112,64,37,54,51,111,109,46,67,79,77,37,50,69,227,128,46,45,46,197,128,46,45,97,46,46] false false
  ⟨[104,116,116,112,58,47,47], [117,58,112], [37,54,51,111,109,46,67,79,77,37,50,69,227,128,46,45,46,197,128], [45,97], [], [], [], [], .hostName⟩ none
#guard row [] false true
  ⟨[], [], [], [], [], [], [], [], .none⟩ (some .emptyDomain)
#guard row [32,47,47,117,64,99,111,109,46,46,52,46,33,119,119,119,227,128,130,107,111,98,101,46,37,46,113,226,128,139] true false
  ⟨[47,47], [117], [], [], [], [], [], [], .none⟩ (some (.badEscape [37,46,113]))
#guard row [104,116,116,112,58,47,47,33,119,119,119,46,196,176,46,97,45,46,37,64,46,106,112,226,128,139] true false
  ⟨[104,116,116,112,58,47,47], [33,119,119,119,46,196,176,46,97,45,46,37], [], [106,112], [], [], [], [], .hostName⟩ none
#guard row [32,97,46,98,43,99,45,100,58,47,47,47,47,117,58,112,64,37,54,51,111,109,239,189,161,120,239,188,142,227,46,49,46,122,122,47] true true
  ⟨[97,46,98,43,99,45,100,58,47,47,47,47], [117,58,112], [], [227], [49,46,122,122], [227,46,49,46,122,122], [], [47], .hostName⟩ none
#guard row [37,122,122,46,94,37,50,69,106,112,58,48,48,56,48,47,112,63,113,35,102,194,160] false false
  ⟨[], [], [], [], [], [], [48,48,56,48], [47,112,63,113,35,102], .none⟩ (some (.badEscape [37,122,122]))
#guard row [194,160,104,116,116,112,58,47,47,117,58,112,64,107,111,98,101,46,113,46,107,111,98,101,239,189,161,52,46,99,111,109,46,47,93,58,9,32] false false
  ⟨[104,116,116,112,58,47,47], [117,58,112], [107,111,98,101,46,113,46,107,111,98,101], [52], [99,111,109], [52,46,99,111,109], [], [47,93,58], .hostName⟩ none
#guard row [226,128,139,65,47,92,33,46,100,46,46,117,107,46,46,58,45,48,92,120,255] false false
  ⟨[65,47,92], [], [], [], [], [], [45,48], [92,120,255], .none⟩ (some .consecutiveSeparators)
#guard row [9,32,50,53,53,46,50,53,53,46,48,46,49,46,92,120,194,160] false false
  ⟨[], [], [], [50,53,53,46,50,53,53,46,48,46,49], [], [50,53,53,46,50,53,53,46,48,46,49], [], [92,120], .iPv4⟩ none
#guard row [226,128,139,117,58,112,64,99,107,47,91,32] false true
  ⟨[], [117,58,112], [], [], [99,107], [], [], [47,91], .none⟩ (some .emptyDomain)
#guard row [226,128,117,64,106,112,46,65,46,33,119,119,119,46,42,239,188,142,52,46,100,239,188,142,48,49,46,46,58,54,53,53,51,53] false false
  ⟨[], [226,128,117], [], [], [], [], [54,53,53,51,53], [], .none⟩ (some .invalidCharacters)
#guard row [10,117,64,99,107,58,57,57,57,57,57,57,57,57,57,57,57,57,57,57,57,57,57,57,57,57,63,113,64,114] false true
  ⟨[], [117], [], [], [], [], [], [], .none⟩ (some .invalidPort)
#guard row [104,116,116,112,58,47,47,117,64,118,64,106,91,112,227,128,130,35,102,91,9,32] false false
  ⟨[104,116,116,112,58,47,47], [117,64,118], [], [], [], [], [], [], .none⟩ (some .openingBracketNotFirst)
#guard row [226,128,139,117,58,112,64,99,107,46,52,46,119,119,119,46,48,49,46,52,47,93] false false
  ⟨[], [117,58,112], [99,107,46,52,46,119,119,119], [48,49], [52], [48,49,46,52], [], [47,93], .hostName⟩ none
#guard row [91,130] false false
  ⟨[], [], [], [], [], [], [], [], .none⟩ (some .incompleteBrackets)
#guard row [9,32,104,116,116,112,58,48,47,91,48,58,48,58,49,58,49,58,48,58,49,58,48,58,49,93,58,56,48,47,93,32] false false
  ⟨[], [], [], [104,116,116,112], [], [], [48], [47,91,48,58,48,58,49,58,49,58,48,58,49,58,48,58,49,93,58,56,48,47,93], .hostName⟩ none
#guard row [104,116,116,112,58,47,47,117,64,50,53,53,46,49,46,49,46,50,53,53,46,47,226,128] true true
  ⟨[104,116,116,112,58,47,47], [117], [], [50,53,53,46,49,46,49,46,50,53,53], [], [50,53,53,46,49,46,49,46,50,53,53], [], [47,226,128], .iPv4⟩ none
#guard row [98,46,227,128,239,189,161,33,46,46,58,54,53,53,51,53] true true
  ⟨[], [], [], [], [], [], [54,53,53,51,53], [], .none⟩ (some .invalidCharacters)
#guard row [194,160,104,116,116,112,58,47,47,49,46,49,46,50,53,53,46,48,239,189,161,49,58,56,48,226,128,139] false true
  ⟨[104,116,116,112,58,47,47], [], [49,46,49,46,50,53,53,46,48], [49], [], [], [56,48], [], .hostName⟩ none
#guard row [32,64,67,79,77,239,189,161,37,50,101,227,227,128,130,99,107,46,47,93,194,160] false false
  ⟨[], [], [], [67,79,77], [37,50,101,227,227,128,130,99,107], [67,79,77,239,189,161,37,50,101,227,227,128,130,99,107], [], [47,93], .hostName⟩ none
#guard row [255,100,46,128,67,79,77,46,99,107,46,45,97,37,50,69,33,119,119,119,46,58,54,53,53,51,53,63,113,64,114,10] false true
  ⟨[], [], [], [], [], [], [54,53,53,51,53], [63,113,64,114], .none⟩ (some .invalidCharacters)
#guard row [255,67,79,77,46,120,43,121,46,47,112,63,113,35,102,194,160] true false
  ⟨[], [], [], [255,67,79,77], [120,43,121], [255,67,79,77,46,120,43,121], [], [47,112,63,113,35,102], .hostName⟩ none
#guard row [32,48,49,46,99,105,116,121,46,32] false false
  ⟨[], [], [48,49], [99,105,116,121], [], [], [], [], .hostName⟩ none
#guard row [93,47] false true
  ⟨[], [], [], [], [], [], [], [], .none⟩ (some .closingWithoutOpening)
#guard row [9,32,104,116,116,112,58,47,47,117,64,99,111,109,58,56,48,10] false true
  ⟨[104,116,116,112,58,47,47], [117], [], [], [99,111,109], [], [56,48], [], .none⟩ (some .emptyDomain)
#guard row [10,92,92,37,54,51,111,109,46,120,43,121,46,46,46,95,239,189,161,99,111,45,58,45,48] false false
  ⟨[92,92], [], [], [], [], [], [45,48], [], .none⟩ (some .invalidCharacters)
#guard row [37,54,51,90,111,109,46,37,50,101,46,119,119,119,227,128,130,47,255] false true
  ⟨[], [], [], [], [], [], [], [47,255], .none⟩ (some .invalidCharacters)
#guard row [104,116,116,112,58,47,47,113,46,119,119,119,58,43,53,47,112,63,113,35,102] true true
  ⟨[104,116,116,112,58,47,47], [], [], [119,119,119], [], [], [43,53], [47,112,63,113,35,102], .hostName⟩ none
#guard row [120,43,121,46,94,227,128,130,47,112,63,113,35,102] false false
  ⟨[], [], [], [], [], [], [], [47,112,63,113,35,102], .none⟩ (some (.idna [98,97,100]))
#guard row [194,160,227,46,58,56,48,64,47,91,239,187,191] false false
  ⟨[], [227,46,58,56,48], [], [], [], [], [], [47,91], .none⟩ (some .emptyDomain)
#guard row [10,64,65,46,37,46,196,176,46,120,43,121,46,33,119,119,119,46,107,111,98,101,227,128,130] false true
  ⟨[], [], [], [], [], [], [], [], .none⟩ (some (.badEscape [37,46,196]))
#guard row [239,187,191,117,64,118,64,37,46,99,107,46,99,111,46,47,112,63,113,35,102,194,160] false true
  ⟨[], [117,64,118], [], [], [], [], [], [47,112,63,113,35,102], .none⟩ (some (.badEscape [37,46,99]))
#guard row [32,47,47,117,58,112,64,37,122,122,46,99,111,109,58,54,53,53,51,53,47,93] false false
  ⟨[47,47], [117,58,112], [], [], [], [], [54,53,53,51,53], [47,93], .none⟩ (some (.badEscape [37,122,122]))
#guard row [104,116,116,112,58,47,47,117,58,112,64,42,58,54,53,53,51,53,194,160] true true
  ⟨[104,116,116,112,58,47,47], [117,58,112], [], [], [], [], [54,53,53,51,53], [], .none⟩ (some .invalidCharacters)
#guard row [226,128,139,117,107,46,120,46,196,176,46,37,50,101,46,46,99,107,47,112,63,113,35,102,239,187,93,191] false false
  ⟨[], [], [], [], [], [], [], [47,112,63,113,35,102,239,187,93,191], .none⟩ (some .consecutiveSeparators)
#guard row [9,32,65,47,92,117,58,112,64,37,54,51,111,109,37,50,69,99,111,58,43,53,239,187,191] true false
  ⟨[65,47,92], [117,58,112], [], [37,54,51,111,109,37,50,69,99,111], [], [], [43,53], [], .hostName⟩ none
#guard row [194,160,104,116,116,112,58,47,47,64,99,111,109,46,117,107,46,48,49,46,255,46,120,37,50,69,37,58,45,48,63,113,64,114,255] false false
  ⟨[104,116,116,112,58,47,47], [], [], [], [], [], [45,48], [63,113,64,114,255], .none⟩ (some (.badEscape [37]))
#guard row [255,117,58,112,64,49,46,50,53,53,46,50,53,54,46,49,58,54,53,53,51,53,47] false false
  ⟨[], [255,117,58,112], [49,46,50,53,53,46,50,53,54], [49], [], [], [54,53,53,51,53], [47], .hostName⟩ none
#guard row [104,116,116,112,58,47,47,117,64,118,64,37,122,122,46,197,128,46,122,122,46,48,49,46,99,111,109,58,56,48,47,93,9,32] false false
  ⟨[104,116,116,112,58,47,47], [117,64,118], [], [], [], [], [56,48], [47,93], .none⟩ (some (.badEscape [37,122,122]))
#guard row [104,116,116,112,58,47,47,117,58,112,64,99,107,46,117,107,46,58,43,53,47,10] false true
  ⟨[104,116,116,112,58,47,47], [117,58,112], [], [], [99,107,46,117,107], [], [43,53], [47], .none⟩ (some .emptyDomain)
#guard row [99,99,99,33,45,33] true true
  ⟨[], [], [], [], [], [], [], [], .none⟩ (some .invalidCharacters)
#guard row [226,128,139,65,47,92,117,107,46,120,43,121] false false
  ⟨[65,47,92], [], [], [117,107], [120,43,121], [117,107,46,120,43,121], [], [], .hostName⟩ none
#guard row [10,97,46,98,43,99,45,100,58,47,47,47,47,99,107,46,97,46,45,37,50,69,94,46,226,128,139] false false
  ⟨[97,46,98,43,99,45,100,58,47,47,47,47], [], [], [], [], [], [], [], .none⟩ (some (.idna [98,97,100]))
#guard row [97,46,98,43,99,45,100,58,47,47,47,47,119,119,119,46,194,160] false true
  ⟨[97,46,98,43,99,45,100,58,47,47,47,47], [], [], [119,119,119], [], [], [], [], .hostName⟩ none
#guard row [9,32,104,116,116,112,58,47,47,117,58,112,64,120,46,46,52,47,91,194,160] false true
  ⟨[104,116,116,112,58,47,47], [117,58,112], [], [], [], [], [], [47,91], .none⟩ (some .consecutiveSeparators)
#guard row [194,160,47,47,120,32,121,46,33,119,119,119,255] false true
  ⟨[47,47], [], [], [], [], [], [], [], .none⟩ (some .invalidCharacters)
#guard row [226,128,117,64,95,239,188,142,99,105,116,121,37,50,69,33,119,119,119,46,99,111,109,47] false true
  ⟨[], [226,128,117], [], [], [], [], [], [47], .none⟩ (some .emptyDomain)
#guard row [239,187,191,104,116,116,112,58,47,47,117,64,120,32,121,46,46,197,128,239,188,142,100,37,50,69,46,117,107,47,91,226,128] false true
  ⟨[104,116,116,112,58,47,47], [117], [], [], [], [], [], [47,91,226,128], .none⟩ (some .consecutiveSeparators)
#guard row [9,32,117,64,95,46,97,45,46,46,194,160] false true
  ⟨[], [117], [], [], [], [], [], [], .none⟩ (some .emptyDomain)
#guard row [47,47,48,46,48,46,48,46,48,46,92,120,9,32] false true
  ⟨[47,47], [], [], [48,46,48,46,48,46,48], [], [48,46,48,46,48,46,48], [], [92,120], .iPv4⟩ none
#guard row [194,160,117,64,228,184,150,231,149,140,46,107,111,98,101,46,197,128,46,99,111,109] false false
  ⟨[], [117], [228,184,150,231,149,140,46,107,111,98,101], [197,128], [99,111,109], [197,128,46,99,111,109], [], [], .hostName⟩ none
#guard row [104,116,116,112,58,47,47,64,48,49,37,50,69,93,37,122,122,46,92,120,194,160] false false
  ⟨[104,116,116,112,58,47,47], [], [], [], [], [], [], [], .none⟩ (some .closingWithoutOpening)
#guard row [117,64,99,111,109,46,227,128,46,227,128,46,97,37,50,69,52,46,106,112,46,99,111,109,46,58,48,48,56,48,63,113,64,114,32] false false
  ⟨[], [117], [99,111,109,46,227,128,46,227,128,46,97,37,50,69,52], [106,112], [99,111,109], [106,112,46,99,111,109], [48,48,56,48], [63,113,64,114], .hostName⟩ none
#guard row [120] false true
  ⟨[], [], [], [120], [], [], [], [], .hostName⟩ none
#guard row [239,187,191,117,64,91,49,58,49,58,49,58,49,58,49,58,49,58,102,102,102,102,58,48,93,92,120,10] false false
  ⟨[], [117], [], [49,58,49,58,49,58,49,58,49,58,49,58,102,102,102,102,58,48], [], [49,58,49,58,49,58,49,58,49,58,49,58,102,102,102,102,58,48], [], [92,120], .iPv6⟩ none
#guard row [99,111,46,98,227,128,130,58,43,53,47,93,226,128,139] true true
  ⟨[], [], [], [98], [], [], [43,53], [47,93], .hostName⟩ none
#guard row [9,32,117,58,112,64,49,58,54,53,53,51,53,47,93,226,128,139] false false
  ⟨[], [117,58,112], [], [49], [], [], [54,53,53,51,53], [47,93], .hostName⟩ none
#guard row [32,255,64,37,122,122,47,91,226,128] true true
  ⟨[], [255], [], [], [], [], [], [47,91,226,128], .none⟩ (some (.badEscape [37,122,122]))
#guard row [9,32,104,116,116,112,58,47,47,117,58,112,64,227,128,46,122,122,46,117,107,227,128,130,63,113,64,114] true true
  ⟨[104,116,116,112,58,47,47], [117,58,112], [], [122,122], [117,107], [122,122,46,117,107], [], [63,113,64,114], .hostName⟩ none
#guard row [32,104,116,116,112,58,47,47,117,64,118,64,46,46,92,120] false false
  ⟨[104,116,116,112,58,47,47], [117,64,118], [], [], [], [], [], [92,120], .none⟩ (some .emptyDomain)
#guard row [117,64,118,64,97,46,99,46,99,105,116,121,46,120,32,121,46,65,239,187,191] false true
  ⟨[], [117,64,118], [], [], [], [], [], [], .none⟩ (some .invalidCharacters)
#guard row [226,128,117,58,112,64,91,48,58,49,58,48,58,49,58,48,58,102,102,102,102,58,93] false true
  ⟨[], [226,128,117,58,112], [], [], [], [], [], [], .none⟩ (some .invalidIPv6)
#guard row [32,65,47,92,117,64,100,46,37,50,101,227,128,130,58,48,48,56,48,92,120,239,187,191] false false
  ⟨[65,47,92], [117], [100], [37,50,101], [], [], [48,48,56,48], [92,120], .hostName⟩ none
#guard row [239,187,191,52,46,49,46,45,46,227,128,46,99,107,239,189,161,99,37,50,69,99,107,58,45,48,239,187,191] false false
  ⟨[], [], [52,46,49,46,45,46,227,128,46,99,107], [99,37,50,69,99,107], [], [], [45,48], [], .hostName⟩ none
#guard row [32,104,116,116,112,58,47,47,107,111,98,101,46,106,112,239,188,142,99,111,109,239,189,161,94,46,99,111,109] false false
  ⟨[104,116,116,112,58,47,47], [], [], [], [], [], [], [], .none⟩ (some (.idna [98,97,100]))
#guard row [9,32,104,116,116,112,115,58,117,58,112,64,50,53,53,46,117,107,46,97,239,189,161,50,53,54,46,46,99,111,109,35,102,91,10] false false
  ⟨[], [104,116,116,112,115,58,117,58,112], [50,53,53,46,117,107,46,97,239,189,161,50,53,54], [], [99,111,109], [46,99,111,109], [], [35,102,91], .none⟩ (some .emptyDomain)
#guard row [32,104,116,116,112,58,47,47,117,64,118,64,117,107,46,99,46,106,112,46,45,97,46,99,111,46,46,58,54,53,53,51,53,47,91,9,32] false false
  ⟨[104,116,116,112,58,47,47], [117,64,118], [117,107,46,99,46,106,112,46,45,97], [99,111], [], [], [54,53,53,51,53], [47,91], .hostName⟩ none
#guard row [104,116,116,112,58,47,47,107,111,98,101,58,48,48,47,48,194,160] false true
  ⟨[104,116,116,112,58,47,47], [], [], [107,111,98,101], [], [], [48,48], [47,48], .hostName⟩ none
#guard row [226,128,139,65,47,92,228,184,150,231,149,140,227,128,130,47,112,63,113,35,102] false true
  ⟨[65,47,92], [], [], [], [228,184,150,231,149,140], [], [], [47,112,63,113,35,102], .none⟩ (some .emptyDomain)
#guard row [194,160,117,64,118,64,99,107,46,99,107,227,128,130,47,91,32] false false
  ⟨[], [117,64,118], [], [], [99,107,46,99,107], [], [], [47,91], .none⟩ (some .emptyDomain)
#guard row [32,91,33,47,52] false true
  ⟨[], [], [], [], [], [], [], [], .none⟩ (some .incompleteBrackets)
#guard row [194,160,104,116,116,112,58,47,47,117,64,50,53,53,46,50,53,53,46,48,239,189,161,58,43,53] false false
  ⟨[104,116,116,112,58,47,47], [117], [50,53,53,46,50,53,53], [48], [], [], [43,53], [], .hostName⟩ none

end Fasttld.Tests.Port
