import Verif.Spec.Punycode

/-!
# Punycode (tests, not proofs)

Generated by tools/gen_punycode_tests.py.  All labels of the built-in list that are not in ASCII, and random ones, with
what Python's codec gives for them.
-/

namespace Fasttld.Tests.Punycode
open Fasttld Fasttld.Spec

#guard Punycode.label [97,195,169,114,111,112,111,114,116] == [120,110,45,45,97,114,111,112,111,114,116,45,98,121,97]
#guard Punycode.label [229,133,172,229,143,184] == [120,110,45,45,53,53,113,120,53,100]
#guard Punycode.label [231,182,178,231,181,161] == [120,110,45,45,111,100,48,97,108,103]
#guard Punycode.label [231,189,145,231,187,156] == [120,110,45,45,105,111,48,97,55,105]
#guard Punycode.label [228,184,170,228,186,186] == [120,110,45,45,99,105,113,112,110]
#guard Punycode.label [229,128,139,228,186,186] == [120,110,45,45,103,109,113,119,53,97]
#guard Punycode.label [230,148,191,229,186,156] == [120,110,45,45,109,120,116,113,49,109]
#guard Punycode.label [230,149,142,232,130,178] == [120,110,45,45,108,99,118,114,51,50,100]
#guard Punycode.label [230,149,153,232,130,178] == [120,110,45,45,119,99,118,115,50,50,100]
#guard Punycode.label [231,174,135,228,186,186] == [120,110,45,45,103,109,113,48,53,48,105]
#guard Punycode.label [231,181,132,231,185,148] == [120,110,45,45,117,99,48,97,116,118]
#guard Punycode.label [231,181,132,231,187,135] == [120,110,45,45,117,99,48,97,121,52,97]
#guard Punycode.label [231,182,178,231,187,156] == [120,110,45,45,122,102,48,97,118,120]
#guard Punycode.label [231,187,132,231,185,148] == [120,110,45,45,109,107,48,97,120,105]
#guard Punycode.label [231,187,132,231,187,135] == [120,110,45,45,116,110,48,97,103]
#guard Punycode.label [231,189,145,231,181,161] == [120,110,45,45,111,100,48,97,113,51,98]
#guard Punycode.label [215,153,215,169,215,168,215,144,215,156] == [120,110,45,45,52,100,98,114,107,48,99,101]
#guard Punycode.label [215,144,215,167,215,147,215,158,215,153,215,148] == [120,110,45,45,52,100,98,103,100,116,121,54,99]
#guard Punycode.label [215,153,215,169,215,149,215,145] == [120,110,45,45,53,100,98,104,108,56,100]
#guard Punycode.label [215,166,215,148,215,156] == [120,110,45,45,56,100,98,113,50,97]
#guard Punycode.label [215,158,215,158,215,169,215,156] == [120,110,45,45,104,101,98,100,97,56,98]
#guard Punycode.label [216,167,219,140,216,177,216,167,217,134] == [120,110,45,45,109,103,98,97,51,97,52,102,49,54,97]
#guard Punycode.label [216,167,217,138,216,177,216,167,217,134] == [120,110,45,45,109,103,98,97,51,97,52,102,114,97]
#guard Punycode.label [116,114,101,110,116,105,110,45,115,195,188,100,45,116,105,114,111,108] == [120,110,45,45,116,114,101,110,116,105,110,45,115,100,45,116,105,114,111,108,45,114,122,98]
#guard Punycode.label [116,114,101,110,116,105,110,45,115,195,188,100,116,105,114,111,108] == [120,110,45,45,116,114,101,110,116,105,110,45,115,100,116,105,114,111,108,45,55,118,98]
#guard Punycode.label [116,114,101,110,116,105,110,111,45,115,195,188,100,45,116,105,114,111,108] == [120,110,45,45,116,114,101,110,116,105,110,111,45,115,100,45,116,105,114,111,108,45,99,51,98]
#guard Punycode.label [116,114,101,110,116,105,110,111,45,115,195,188,100,116,105,114,111,108] == [120,110,45,45,116,114,101,110,116,105,110,111,45,115,100,116,105,114,111,108,45,115,122,98]
#guard Punycode.label [116,114,101,110,116,105,110,111,115,195,188,100,45,116,105,114,111,108] == [120,110,45,45,116,114,101,110,116,105,110,111,115,100,45,116,105,114,111,108,45,114,122,98]
#guard Punycode.label [116,114,101,110,116,105,110,111,115,195,188,100,116,105,114,111,108] == [120,110,45,45,116,114,101,110,116,105,110,111,115,100,116,105,114,111,108,45,55,118,98]
#guard Punycode.label [116,114,101,110,116,105,110,115,195,188,100,45,116,105,114,111,108] == [120,110,45,45,116,114,101,110,116,105,110,115,100,45,116,105,114,111,108,45,54,118,98]
#guard Punycode.label [116,114,101,110,116,105,110,115,195,188,100,116,105,114,111,108] == [120,110,45,45,116,114,101,110,116,105,110,115,100,116,105,114,111,108,45,110,115,98]
#guard Punycode.label [118,97,108,108,195,169,101,45,97,111,115,116,101] == [120,110,45,45,118,97,108,108,101,45,97,111,115,116,101,45,101,98,98]
#guard Punycode.label [118,97,108,108,195,169,101,45,100,45,97,111,115,116,101] == [120,110,45,45,118,97,108,108,101,45,100,45,97,111,115,116,101,45,101,104,98]
#guard Punycode.label [118,97,108,108,195,169,101,97,111,115,116,101] == [120,110,45,45,118,97,108,108,101,97,111,115,116,101,45,101,55,97]
#guard Punycode.label [118,97,108,108,195,169,101,100,97,111,115,116,101] == [120,110,45,45,118,97,108,108,101,100,97,111,115,116,101,45,101,98,98]
#guard Punycode.label [98,97,108,115,97,110,45,115,195,188,100,116,105,114,111,108] == [120,110,45,45,98,97,108,115,97,110,45,115,100,116,105,114,111,108,45,110,115,98]
#guard Punycode.label [98,111,122,101,110,45,115,195,188,100,116,105,114,111,108] == [120,110,45,45,98,111,122,101,110,45,115,100,116,105,114,111,108,45,50,111,98]
#guard Punycode.label [98,117,108,115,97,110,45,115,195,188,100,116,105,114,111,108] == [120,110,45,45,98,117,108,115,97,110,45,115,100,116,105,114,111,108,45,110,115,98]
#guard Punycode.label [99,101,115,101,110,97,45,102,111,114,108,195,172] == [120,110,45,45,99,101,115,101,110,97,45,102,111,114,108,45,109,99,98]
#guard Punycode.label [99,101,115,101,110,97,102,111,114,108,195,172] == [120,110,45,45,99,101,115,101,110,97,102,111,114,108,45,105,56,97]
#guard Punycode.label [102,111,114,108,195,172,45,99,101,115,101,110,97] == [120,110,45,45,102,111,114,108,45,99,101,115,101,110,97,45,102,99,98]
#guard Punycode.label [102,111,114,108,195,172,99,101,115,101,110,97] == [120,110,45,45,102,111,114,108,99,101,115,101,110,97,45,99,56,97]
#guard Punycode.label [115,195,188,100,116,105,114,111,108] == [120,110,45,45,115,100,116,105,114,111,108,45,110,50,97]
#guard Punycode.label [228,184,137,233,135,141] == [120,110,45,45,101,104,113,122,53,54,110]
#guard Punycode.label [228,186,172,233,131,189] == [120,110,45,45,49,108,113,115,48,51,110]
#guard Punycode.label [228,189,144,232,179,128] == [120,110,45,45,113,113,113,116,49,49,109]
#guard Punycode.label [229,133,181,229,186,171] == [120,110,45,45,102,54,113,120,53,51,97]
#guard Punycode.label [229,140,151,230,181,183,233,129,147] == [120,110,45,45,100,106,114,115,55,50,100,54,117,121]
#guard Punycode.label [229,141,131,232,145,137] == [120,110,45,45,109,107,114,117,52,53,105]
#guard Punycode.label [229,146,140,230,173,140,229,177,177] == [120,110,45,45,48,116,114,113,55,112,55,110,110]
#guard Punycode.label [229,159,188,231,142,137] == [120,110,45,45,53,106,115,48,52,53,100]
#guard Punycode.label [229,164,167,229,136,134] == [120,110,45,45,107,98,114,113,55,111]
#guard Punycode.label [229,164,167,233,152,170] == [120,110,45,45,112,115,115,117,51,51,108]
#guard Punycode.label [229,165,136,232,137,175] == [120,110,45,45,110,116,115,113,49,55,103]
#guard Punycode.label [229,174,174,229,159,142] == [120,110,45,45,117,105,115,122,51,103]
#guard Punycode.label [229,174,174,229,180,142] == [120,110,45,45,54,98,116,119,53,97]
#guard Punycode.label [229,175,140,229,177,177] == [120,110,45,45,49,99,116,119,111]
#guard Punycode.label [229,177,177,229,143,163] == [120,110,45,45,54,111,114,120,50,114]
#guard Punycode.label [229,177,177,229,189,162] == [120,110,45,45,114,104,116,54,49,101]
#guard Punycode.label [229,177,177,230,162,168] == [120,110,45,45,114,104,116,50,55,122]
#guard Punycode.label [229,178,144,233,152,156] == [120,110,45,45,110,105,116,50,50,53,107]
#guard Punycode.label [229,178,161,229,177,177] == [120,110,45,45,114,104,116,51,100]
#guard Punycode.label [229,178,169,230,137,139] == [120,110,45,45,100,106,116,121,52,107]
#guard Punycode.label [229,179,182,230,160,185] == [120,110,45,45,107,108,116,121,53,120]
#guard Punycode.label [229,186,131,229,179,182] == [120,110,45,45,107,108,116,120,57,97]
#guard Punycode.label [229,190,179,229,179,182] == [120,110,45,45,107,108,116,112,55,100]
#guard Punycode.label [230,132,155,229,170,155] == [120,110,45,45,99,51,115,49,52,109]
#guard Punycode.label [230,132,155,231,159,165] == [120,110,45,45,118,103,117,52,48,50,99]
#guard Punycode.label [230,150,176,230,189,159] == [120,110,45,45,101,102,118,110,57,115]
#guard Punycode.label [230,157,177,228,186,172] == [120,110,45,45,49,108,113,115,55,49,100]
#guard Punycode.label [230,160,131,230,156,168] == [120,110,45,45,52,112,118,120,115]
#guard Punycode.label [230,178,150,231,184,132] == [120,110,45,45,117,117,119,117,53,56,97]
#guard Punycode.label [230,187,139,232,179,128] == [120,110,45,45,122,98,120,48,50,53,100]
#guard Punycode.label [231,134,138,230,156,172] == [120,110,45,45,56,112,118,114,52,117]
#guard Punycode.label [231,159,179,229,183,157] == [120,110,45,45,53,114,116,112,52,57,99]
#guard Punycode.label [231,165,158,229,165,136,229,183,157] == [120,110,45,45,110,116,115,111,48,105,113,120,51,97]
#guard Punycode.label [231,166,143,228,186,149] == [120,110,45,45,101,108,113,113,49,54,104]
#guard Punycode.label [231,166,143,229,178,161] == [120,110,45,45,52,105,116,49,54,56,100]
#guard Punycode.label [231,166,143,229,179,182] == [120,110,45,45,107,108,116,55,56,55,100]
#guard Punycode.label [231,167,139,231,148,176] == [120,110,45,45,114,110,121,51,49,104]
#guard Punycode.label [231,190,164,233,166,172] == [120,110,45,45,55,116,48,97,50,54,52,99]
#guard Punycode.label [232,140,168,229,159,142] == [120,110,45,45,117,105,115,116,50,50,104]
#guard Punycode.label [233,149,183,229,180,142] == [120,110,45,45,56,108,116,114,54,50,107]
#guard Punycode.label [233,149,183,233,135,142] == [120,110,45,45,50,109,52,97,49,53,101]
#guard Punycode.label [233,157,146,230,163,174] == [120,110,45,45,51,50,118,112,51,48,104]
#guard Punycode.label [233,157,153,229,178,161] == [120,110,45,45,52,105,116,55,57,55,107]
#guard Punycode.label [233,166,153,229,183,157] == [120,110,45,45,53,114,116,113,51,52,107]
#guard Punycode.label [233,171,152,231,159,165] == [120,110,45,45,107,55,121,110,57,53,101]
#guard Punycode.label [233,179,165,229,143,150] == [120,110,45,45,116,111,114,49,51,49,111]
#guard Punycode.label [233,185,191,229,133,144,229,179,182] == [120,110,45,45,100,53,113,118,55,122,56,55,54,99]
#guard Punycode.label [195,165,107,114,101,104,97,109,110] == [120,110,45,45,107,114,101,104,97,109,110,45,100,120,97]
#guard Punycode.label [195,165,108,103,195,165,114,100] == [120,110,45,45,108,103,114,100,45,112,111,97,99]
#guard Punycode.label [98,114,195,184,110,110,195,184,121,115,117,110,100] == [120,110,45,45,98,114,110,110,121,115,117,110,100,45,109,56,97,99]
#guard Punycode.label [100,114,195,184,98,97,107] == [120,110,45,45,100,114,98,97,107,45,119,117,97]
#guard Punycode.label [102,108,111,114,195,184] == [120,110,45,45,102,108,111,114,45,106,114,97]
#guard Punycode.label [104,195,184,110,101,102,111,115,115] == [120,110,45,45,104,110,101,102,111,115,115,45,113,49,97]
#guard Punycode.label [106,195,184,114,112,101,108,97,110,100] == [120,110,45,45,106,114,112,101,108,97,110,100,45,53,52,97]
#guard Punycode.label [108,97,110,103,101,118,195,165,103] == [120,110,45,45,108,97,110,103,101,118,103,45,106,120,97]
#guard Punycode.label [109,106,195,184,110,100,97,108,101,110] == [120,110,45,45,109,106,110,100,97,108,101,110,45,54,52,97]
#guard Punycode.label [109,111,115,106,195,184,101,110] == [120,110,45,45,109,111,115,106,101,110,45,101,121,97]
#guard Punycode.label [111,115,195,184,121,114,111] == [120,110,45,45,111,115,121,114,111,45,119,117,97]
#guard Punycode.label [114,195,165,104,111,108,116] == [120,110,45,45,114,104,111,108,116,45,109,114,97]
#guard Punycode.label [115,97,110,100,110,101,115,115,106,195,184,101,110] == [120,110,45,45,115,97,110,100,110,101,115,115,106,101,110,45,111,103,98]
#guard Punycode.label [115,116,106,195,184,114,100,97,108,115,104,97,108,115,101,110] == [120,110,45,45,115,116,106,114,100,97,108,115,104,97,108,115,101,110,45,115,113,98]
#guard Punycode.label [195,165,102,106,111,114,100] == [120,110,45,45,102,106,111,114,100,45,108,114,97]
#guard Punycode.label [195,161,107,197,139,111,108,117,111,107,116,97] == [120,110,45,45,107,111,108,117,111,107,116,97,45,55,121,97,53,55,104]
#guard Punycode.label [195,165,108] == [120,110,45,45,108,45,49,102,97]
#guard Punycode.label [195,161,108,97,104,101,97,100,106,117] == [120,110,45,45,108,97,104,101,97,100,106,117,45,55,121,97]
#guard Punycode.label [195,165,108,101,115,117,110,100] == [120,110,45,45,108,101,115,117,110,100,45,104,117,97]
#guard Punycode.label [195,161,108,116,195,161] == [120,110,45,45,108,116,45,108,105,97,99]
#guard Punycode.label [195,165,109,108,105] == [120,110,45,45,109,108,105,45,116,108,97]
#guard Punycode.label [195,165,109,111,116] == [120,110,45,45,109,111,116,45,116,108,97]
#guard Punycode.label [97,110,100,195,184,121] == [120,110,45,45,97,110,100,121,45,105,114,97]
#guard Punycode.label [195,165,114,100,97,108] == [120,110,45,45,114,100,97,108,45,112,111,97]
#guard Punycode.label [195,165,115] == [120,110,45,45,115,45,49,102,97]
#guard Punycode.label [195,165,115,101,114,97,108] == [120,110,45,45,115,101,114,97,108,45,108,114,97]
#guard Punycode.label [97,115,107,195,184,121] == [120,110,45,45,97,115,107,121,45,105,114,97]
#guard Punycode.label [195,165,115,110,101,115] == [120,110,45,45,115,110,101,115,45,112,111,97]
#guard Punycode.label [97,117,114,115,107,111,103,45,104,195,184,108,97,110,100] == [120,110,45,45,97,117,114,115,107,111,103,45,104,108,97,110,100,45,106,110,98]
#guard Punycode.label [97,118,101,114,195,184,121] == [120,110,45,45,97,118,101,114,121,45,121,117,97]
#guard Punycode.label [98,195,165,100,195,165,100,100,106,195,165] == [120,110,45,45,98,100,100,100,106,45,109,114,97,98,100]
#guard Punycode.label [98,195,166,114,117,109] == [120,110,45,45,98,114,117,109,45,118,111,97]
#guard Punycode.label [98,195,161,104,99,97,118,117,111,116,110,97] == [120,110,45,45,98,104,99,97,118,117,111,116,110,97,45,115,52,97]
#guard Punycode.label [98,195,161,104,99,99,97,118,117,111,116,110,97] == [120,110,45,45,98,104,99,99,97,118,117,111,116,110,97,45,107,55,97]
#guard Punycode.label [98,195,161,105,100,195,161,114] == [120,110,45,45,98,105,100,114,45,53,110,97,99]
#guard Punycode.label [98,195,161,106,100,100,97,114] == [120,110,45,45,98,106,100,100,97,114,45,112,116,97]
#guard Punycode.label [98,195,161,108,195,161,116] == [120,110,45,45,98,108,116,45,101,108,97,98]
#guard Punycode.label [98,195,165,116,115,102,106,111,114,100] == [120,110,45,45,98,116,115,102,106,111,114,100,45,57,122,97]
#guard Punycode.label [98,101,97,114,97,108,118,195,161,104,107,105] == [120,110,45,45,98,101,97,114,97,108,118,104,107,105,45,121,52,97]
#guard Punycode.label [98,101,114,108,101,118,195,165,103] == [120,110,45,45,98,101,114,108,101,118,103,45,106,120,97]
#guard Punycode.label [98,105,101,118,195,161,116] == [120,110,45,45,98,105,101,118,116,45,48,113,97]
#guard Punycode.label [98,106,97,114,107,195,184,121] == [120,110,45,45,98,106,97,114,107,121,45,102,121,97]
#guard Punycode.label [98,111,100,195,184] == [120,110,45,45,98,111,100,45,50,110,97]
#guard Punycode.label [98,195,184,109,108,111] == [120,110,45,45,98,109,108,111,45,103,114,97]
#guard Punycode.label [98,114,195,184,110,110,195,184,121] == [120,110,45,45,98,114,110,110,121,45,119,117,97,99]
#guard Punycode.label [196,141,195,161,104,99,101,115,117,111,108,111] == [120,110,45,45,104,99,101,115,117,111,108,111,45,55,121,97,51,53,98]
#guard Punycode.label [100,97,118,118,101,110,106,195,161,114,103,97] == [120,110,45,45,100,97,118,118,101,110,106,114,103,97,45,121,52,97]
#guard Punycode.label [100,195,184,110,110,97] == [120,110,45,45,100,110,110,97,45,103,114,97]
#guard Punycode.label [100,121,114,195,184,121] == [120,110,45,45,100,121,114,121,45,105,114,97]
#guard Punycode.label [101,118,101,110,195,161,197,161,197,161,105] == [120,110,45,45,101,118,101,110,105,45,48,113,97,48,49,103,97]
#guard Punycode.label [102,105,110,110,195,184,121] == [120,110,45,45,102,105,110,110,121,45,121,117,97]
#guard Punycode.label [102,108,195,165] == [120,110,45,45,102,108,45,122,105,97]
#guard Punycode.label [102,195,184,114,100,101] == [120,110,45,45,102,114,100,101,45,103,114,97]
#guard Punycode.label [102,114,195,166,110,97] == [120,110,45,45,102,114,110,97,45,119,111,97]
#guard Punycode.label [102,114,195,184,121,97] == [120,110,45,45,102,114,121,97,45,104,114,97]
#guard Punycode.label [103,195,161,105,118,117,111,116,110,97] == [120,110,45,45,103,105,118,117,111,116,110,97,45,56,121,97]
#guard Punycode.label [103,195,161,108,115,195,161] == [120,110,45,45,103,108,115,45,101,108,97,99]
#guard Punycode.label [103,195,161,197,139,103,97,118,105,105,107,97] == [120,110,45,45,103,103,97,118,105,105,107,97,45,56,121,97,52,55,104]
#guard Punycode.label [103,105,108,100,101,115,107,195,165,108] == [120,110,45,45,103,105,108,100,101,115,107,108,45,103,48,97]
#guard Punycode.label [103,106,195,184,118,105,107] == [120,110,45,45,103,106,118,105,107,45,119,117,97]
#guard Punycode.label [104,195,165] == [120,110,45,45,104,45,50,102,97]
#guard Punycode.label [104,195,161,98,109,101,114] == [120,110,45,45,104,98,109,101,114,45,120,113,97]
#guard Punycode.label [104,195,166,103,101,98,111,115,116,97,100] == [120,110,45,45,104,103,101,98,111,115,116,97,100,45,103,51,97]
#guard Punycode.label [104,195,161,109,109,195,161,114,102,101,97,115,116,97] == [120,110,45,45,104,109,109,114,102,101,97,115,116,97,45,115,52,97,99]
#guard Punycode.label [104,195,161,112,109,105,114] == [120,110,45,45,104,112,109,105,114,45,120,113,97]
#guard Punycode.label [118,195,165,108,101,114] == [120,110,45,45,118,108,101,114,45,113,111,97]
#guard Punycode.label [104,111,98,195,184,108] == [120,110,45,45,104,111,98,108,45,105,114,97]
#guard Punycode.label [104,111,108,116,195,165,108,101,110] == [120,110,45,45,104,111,108,116,108,101,110,45,104,120,97]
#guard Punycode.label [104,195,184,121,97,110,103,101,114] == [120,110,45,45,104,121,97,110,103,101,114,45,113,49,97]
#guard Punycode.label [104,195,184,121,108,97,110,100,101,116] == [120,110,45,45,104,121,108,97,110,100,101,116,45,53,52,97]
#guard Punycode.label [105,110,100,101,114,195,184,121] == [120,110,45,45,105,110,100,101,114,121,45,102,121,97]
#guard Punycode.label [106,195,184,108,115,116,101,114] == [120,110,45,45,106,108,115,116,101,114,45,98,121,97]
#guard Punycode.label [107,195,165,102,106,111,114,100] == [120,110,45,45,107,102,106,111,114,100,45,105,117,97]
#guard Punycode.label [107,195,161,114,195,161,197,161,106,111,104,107,97] == [120,110,45,45,107,114,106,111,104,107,97,45,104,119,97,98,52,57,106]
#guard Punycode.label [107,97,114,109,195,184,121] == [120,110,45,45,107,97,114,109,121,45,121,117,97]
#guard Punycode.label [107,108,195,166,98,117] == [120,110,45,45,107,108,98,117,45,119,111,97]
#guard Punycode.label [107,114,195,165,97,110,103,104,107,101] == [120,110,45,45,107,114,97,110,103,104,107,101,45,98,48,97]
#guard Punycode.label [107,114,97,103,101,114,195,184] == [120,110,45,45,107,114,97,103,101,114,45,103,121,97]
#guard Punycode.label [107,114,195,184,100,115,104,101,114,97,100] == [120,110,45,45,107,114,100,115,104,101,114,97,100,45,109,56,97]
#guard Punycode.label [107,118,195,166,102,106,111,114,100] == [120,110,45,45,107,118,102,106,111,114,100,45,110,120,97]
#guard Punycode.label [107,118,195,166,110,97,110,103,101,110] == [120,110,45,45,107,118,110,97,110,103,101,110,45,107,48,97]
#guard Punycode.label [107,118,105,116,115,195,184,121] == [120,110,45,45,107,118,105,116,115,121,45,102,121,97]
#guard Punycode.label [108,195,166,114,100,97,108] == [120,110,45,45,108,114,100,97,108,45,115,114,97]
#guard Punycode.label [108,195,161,104,112,112,105] == [120,110,45,45,108,104,112,112,105,45,120,113,97]
#guard Punycode.label [108,101,97,197,139,103,97,118,105,105,107,97] == [120,110,45,45,108,101,97,103,97,118,105,105,107,97,45,53,50,98]
#guard Punycode.label [108,105,110,100,195,165,115] == [120,110,45,45,108,105,110,100,115,45,112,114,97]
#guard Punycode.label [108,111,97,98,195,161,116] == [120,110,45,45,108,111,97,98,116,45,48,113,97]
#guard Punycode.label [108,195,184,100,105,110,103,101,110] == [120,110,45,45,108,100,105,110,103,101,110,45,113,49,97]
#guard Punycode.label [108,195,184,114,101,110,115,107,111,103] == [120,110,45,45,108,114,101,110,115,107,111,103,45,53,52,97]
#guard Punycode.label [108,195,184,116,101,110] == [120,110,45,45,108,116,101,110,45,103,114,97]
#guard Punycode.label [108,117,114,195,184,121] == [120,110,45,45,108,117,114,121,45,105,114,97]
#guard Punycode.label [109,195,161,108,97,116,118,117,111,112,109,105] == [120,110,45,45,109,108,97,116,118,117,111,112,109,105,45,115,52,97]
#guard Punycode.label [109,195,165,108,115,101,108,118] == [120,110,45,45,109,108,115,101,108,118,45,105,117,97]
#guard Punycode.label [109,195,165,115,195,184,121] == [120,110,45,45,109,115,121,45,117,108,97,48,104]
#guard Punycode.label [109,195,161,116,116,97,45,118,195,161,114,106,106,97,116] == [120,110,45,45,109,116,116,97,45,118,114,106,106,97,116,45,107,55,97,102]
#guard Punycode.label [109,101,108,195,184,121] == [120,110,45,45,109,101,108,121,45,105,114,97]
#guard Punycode.label [109,101,114,195,165,107,101,114] == [120,110,45,45,109,101,114,107,101,114,45,107,117,97]
#guard Punycode.label [109,111,195,165,114,101,107,101] == [120,110,45,45,109,111,114,101,107,101,45,106,117,97]
#guard Punycode.label [104,101,114,195,184,121] == [120,110,45,45,104,101,114,121,45,105,114,97]
#guard Punycode.label [109,195,184,114,101,45,111,103,45,114,111,109,115,100,97,108] == [120,110,45,45,109,114,101,45,111,103,45,114,111,109,115,100,97,108,45,113,113,98]
#guard Punycode.label [109,117,111,115,195,161,116] == [120,110,45,45,109,117,111,115,116,45,48,113,97]
#guard Punycode.label [110,195,165,195,165,109,101,115,106,101,118,117,101,109,105,101] == [120,110,45,45,110,109,101,115,106,101,118,117,101,109,105,101,45,116,99,98,97]
#guard Punycode.label [110,195,166,114,195,184,121] == [120,110,45,45,110,114,121,45,121,108,97,53,103]
#guard Punycode.label [110,195,161,118,117,111,116,110,97] == [120,110,45,45,110,118,117,111,116,110,97,45,104,119,97]
#guard Punycode.label [98,195,184] == [120,110,45,45,98,45,53,103,97]
#guard Punycode.label [110,195,184,116,116,101,114,195,184,121] == [120,110,45,45,110,116,116,101,114,121,45,98,121,97,101]
#guard Punycode.label [195,184,107,115,110,101,115] == [120,110,45,45,107,115,110,101,115,45,117,117,97]
#guard Punycode.label [111,112,112,101,103,195,165,114,100] == [120,110,45,45,111,112,112,101,103,114,100,45,105,120,97]
#guard Punycode.label [195,184,114,108,97,110,100] == [120,110,45,45,114,108,97,110,100,45,117,117,97]
#guard Punycode.label [195,184,114,115,107,111,103] == [120,110,45,45,114,115,107,111,103,45,117,117,97]
#guard Punycode.label [195,184,114,115,116,97] == [120,110,45,45,114,115,116,97,45,102,114,97]
#guard Punycode.label [111,115,116,101,114,195,184,121] == [120,110,45,45,111,115,116,101,114,121,45,102,121,97]
#guard Punycode.label [195,184,115,116,102,111,108,100] == [120,110,45,45,115,116,102,111,108,100,45,57,120,97]
#guard Punycode.label [195,184,115,116,114,101,45,116,111,116,101,110] == [120,110,45,45,115,116,114,101,45,116,111,116,101,110,45,122,99,98]
#guard Punycode.label [195,184,118,114,101,45,101,105,107,101,114] == [120,110,45,45,118,114,101,45,101,105,107,101,114,45,107,56,97]
#guard Punycode.label [195,184,121,101,114] == [120,110,45,45,121,101,114,45,122,110,97]
#guard Punycode.label [195,184,121,103,97,114,100,101,110] == [120,110,45,45,121,103,97,114,100,101,110,45,112,49,97]
#guard Punycode.label [195,184,121,115,116,114,101,45,115,108,105,100,114,101] == [120,110,45,45,121,115,116,114,101,45,115,108,105,100,114,101,45,117,106,98]
#guard Punycode.label [112,111,114,115,195,161,197,139,103,117] == [120,110,45,45,112,111,114,115,103,117,45,115,116,97,50,54,102]
#guard Punycode.label [114,195,165,100,101] == [120,110,45,45,114,100,101,45,117,108,97]
#guard Punycode.label [114,97,100,195,184,121] == [120,110,45,45,114,97,100,121,45,105,114,97]
#guard Punycode.label [114,195,166,108,105,110,103,101,110] == [120,110,45,45,114,108,105,110,103,101,110,45,109,120,97]
#guard Punycode.label [114,195,161,104,107,107,101,114,195,161,118,106,117] == [120,110,45,45,114,104,107,107,101,114,118,106,117,45,48,49,97,102]
#guard Punycode.label [114,195,161,105,115,97] == [120,110,45,45,114,105,115,97,45,53,110,97]
#guard Punycode.label [114,101,110,110,101,115,195,184,121] == [120,110,45,45,114,101,110,110,101,115,121,45,118,49,97]
#guard Punycode.label [114,105,115,195,184,114] == [120,110,45,45,114,105,115,114,45,105,114,97]
#guard Punycode.label [114,195,184,100,195,184,121] == [120,110,45,45,114,100,121,45,48,110,97,98]
#guard Punycode.label [114,195,184,109,115,107,111,103] == [120,110,45,45,114,109,115,107,111,103,45,98,121,97]
#guard Punycode.label [114,195,184,114,111,115] == [120,110,45,45,114,114,111,115,45,103,114,97]
#guard Punycode.label [114,195,184,115,116] == [120,110,45,45,114,115,116,45,48,110,97]
#guard Punycode.label [114,195,184,121,107,101,110] == [120,110,45,45,114,121,107,101,110,45,118,117,97]
#guard Punycode.label [114,195,184,121,114,118,105,107] == [120,110,45,45,114,121,114,118,105,107,45,98,121,97]
#guard Punycode.label [115,195,161,108,97,116] == [120,110,45,45,115,108,97,116,45,53,110,97]
#guard Punycode.label [115,195,161,108,195,161,116] == [120,110,45,45,115,108,116,45,101,108,97,98]
#guard Punycode.label [115,97,110,100,195,184,121] == [120,110,45,45,115,97,110,100,121,45,121,117,97]
#guard Punycode.label [115,107,195,161,110,105,116] == [120,110,45,45,115,107,110,105,116,45,121,113,97]
#guard Punycode.label [115,107,195,165,110,108,97,110,100] == [120,110,45,45,115,107,110,108,97,110,100,45,102,120,97]
#guard Punycode.label [115,107,105,101,114,118,195,161] == [120,110,45,45,115,107,105,101,114,118,45,117,116,97]
#guard Punycode.label [115,107,106,195,165,107] == [120,110,45,45,115,107,106,107,45,115,111,97]
#guard Punycode.label [115,107,106,101,114,118,195,184,121] == [120,110,45,45,115,107,106,101,114,118,121,45,118,49,97]
#guard Punycode.label [115,109,195,184,108,97] == [120,110,45,45,115,109,108,97,45,104,114,97]
#guard Punycode.label [115,110,195,165,97,115,101] == [120,110,45,45,115,110,97,115,101,45,110,114,97]
#guard Punycode.label [115,110,195,165,115,97] == [120,110,45,45,115,110,115,97,45,114,111,97]
#guard Punycode.label [115,195,184,103,110,101] == [120,110,45,45,115,103,110,101,45,103,114,97]
#guard Punycode.label [115,195,184,109,110,97] == [120,110,45,45,115,109,110,97,45,103,114,97]
#guard Punycode.label [115,195,184,110,100,114,101,45,108,97,110,100] == [120,110,45,45,115,110,100,114,101,45,108,97,110,100,45,48,99,98]
#guard Punycode.label [115,195,184,114,45,97,117,114,100,97,108] == [120,110,45,45,115,114,45,97,117,114,100,97,108,45,108,56,97]
#guard Punycode.label [115,195,184,114,45,102,114,111,110] == [120,110,45,45,115,114,45,102,114,111,110,45,113,49,97]
#guard Punycode.label [115,195,184,114,45,111,100,97,108] == [120,110,45,45,115,114,45,111,100,97,108,45,113,49,97]
#guard Punycode.label [115,195,184,114,45,118,97,114,97,110,103,101,114] == [120,110,45,45,115,114,45,118,97,114,97,110,103,101,114,45,103,103,98]
#guard Punycode.label [115,195,184,114,102,111,108,100] == [120,110,45,45,115,114,102,111,108,100,45,98,121,97]
#guard Punycode.label [115,195,184,114,114,101,105,115,97] == [120,110,45,45,115,114,114,101,105,115,97,45,113,49,97]
#guard Punycode.label [115,195,184,114,117,109] == [120,110,45,45,115,114,117,109,45,103,114,97]
#guard Punycode.label [115,116,106,195,184,114,100,97,108] == [120,110,45,45,115,116,106,114,100,97,108,45,115,49,97]
#guard Punycode.label [116,106,195,184,109,101] == [120,110,45,45,116,106,109,101,45,104,114,97]
#guard Punycode.label [116,195,184,110,115,98,101,114,103] == [120,110,45,45,116,110,115,98,101,114,103,45,113,49,97]
#guard Punycode.label [116,114,195,166,110,97] == [120,110,45,45,116,114,110,97,45,119,111,97]
#guard Punycode.label [116,114,97,110,195,184,121] == [120,110,45,45,116,114,97,110,121,45,121,117,97]
#guard Punycode.label [116,114,195,184,103,115,116,97,100] == [120,110,45,45,116,114,103,115,116,97,100,45,114,49,97]
#guard Punycode.label [116,114,111,109,115,195,184] == [120,110,45,45,116,114,111,109,115,45,122,117,97]
#guard Punycode.label [116,121,115,118,195,166,114] == [120,110,45,45,116,121,115,118,114,45,118,114,97]
#guard Punycode.label [117,110,106,195,161,114,103,97] == [120,110,45,45,117,110,106,114,103,97,45,114,116,97]
#guard Punycode.label [118,97,100,115,195,184] == [120,110,45,45,118,97,100,115,45,106,114,97]
#guard Punycode.label [118,195,166,114,195,184,121] == [120,110,45,45,118,114,121,45,121,108,97,53,103]
#guard Punycode.label [118,195,165,103,195,165] == [120,110,45,45,118,103,45,121,105,97,98]
#guard Punycode.label [118,195,165,103,97,110] == [120,110,45,45,118,103,97,110,45,113,111,97]
#guard Punycode.label [118,195,165,103,115,195,184,121] == [120,110,45,45,118,103,115,121,45,113,111,97,48,106]
#guard Punycode.label [118,97,114,100,195,184] == [120,110,45,45,118,97,114,100,45,106,114,97]
#guard Punycode.label [118,195,161,114,103,103,195,161,116] == [120,110,45,45,118,114,103,103,116,45,120,113,97,100]
#guard Punycode.label [118,101,103,195,165,114,115,104,101,105] == [120,110,45,45,118,101,103,114,115,104,101,105,45,99,48,97]
#guard Punycode.label [118,101,115,116,118,195,165,103,195,184,121] == [120,110,45,45,118,101,115,116,118,103,121,45,105,120,97,54,111]
#guard Punycode.label [109,196,129,111,114,105] == [120,110,45,45,109,111,114,105,45,113,115,97]
#guard Punycode.label [216,167,217,133,216,167,216,177,216,167,216,170] == [120,110,45,45,109,103,98,97,97,109,55,97,56,104]
#guard Punycode.label [213,176,213,161,213,181] == [120,110,45,45,121,57,97,51,97,113]
#guard Punycode.label [224,166,172,224,166,190,224,166,130,224,166,178,224,166,190] == [120,110,45,45,53,52,98,55,102,116,97,48,99,99]
#guard Punycode.label [208,177,208,179] == [120,110,45,45,57,48,97,101]
#guard Punycode.label [216,167,217,132,216,168,216,173,216,177,217,138,217,134] == [120,110,45,45,109,103,98,99,112,113,54,103,112,97,49,97]
#guard Punycode.label [208,177,208,181,208,187] == [120,110,45,45,57,48,97,105,115]
#guard Punycode.label [228,184,173,229,155,189] == [120,110,45,45,102,105,113,115,56,115]
#guard Punycode.label [228,184,173,229,156,139] == [120,110,45,45,102,105,113,122,57,115]
#guard Punycode.label [216,167,217,132,216,172,216,178,216,167,216,166,216,177] == [120,110,45,45,108,103,98,98,97,116,49,97,100,56,106]
#guard Punycode.label [217,133,216,181,216,177] == [120,110,45,45,119,103,98,104,49,99]
#guard Punycode.label [208,181,209,142] == [120,110,45,45,101,49,97,52,99]
#guard Punycode.label [206,181,207,133] == [120,110,45,45,113,120,97,54,97]
#guard Punycode.label [217,133,217,136,216,177,217,138,216,170,216,167,217,134,217,138,216,167] == [120,110,45,45,109,103,98,97,104,49,97,51,104,106,107,114,100]
#guard Punycode.label [225,131,146,225,131,148] == [120,110,45,45,110,111,100,101]
#guard Punycode.label [206,181,206,187] == [120,110,45,45,113,120,97,109]
#guard Punycode.label [233,166,153,230,184,175] == [120,110,45,45,106,54,119,49,57,51,103]
#guard Punycode.label [224,178,173,224,178,190,224,178,176,224,178,164] == [120,110,45,45,50,115,99,114,106,57,99]
#guard Punycode.label [224,172,173,224,172,190,224,172,176,224,172,164] == [120,110,45,45,51,104,99,114,106,57,99]
#guard Punycode.label [224,166,173,224,166,190,224,167,176,224,166,164] == [120,110,45,45,52,53,98,114,53,99,121,108]
#guard Punycode.label [224,164,173,224,164,190,224,164,176,224,164,164,224,164,174,224,165,141] == [120,110,45,45,104,50,98,114,101,103,51,101,118,101]
#guard Punycode.label [224,164,173,224,164,190,224,164,176,224,165,139,224,164,164] == [120,110,45,45,104,50,98,114,106,57,99,56,99]
#guard Punycode.label [218,128,216,167,216,177,216,170] == [120,110,45,45,109,103,98,103,117,56,50,97]
#guard Punycode.label [224,180,173,224,180,190,224,180,176,224,180,164,224,180,130] == [120,110,45,45,114,118,99,49,101,48,97,109,51,101]
#guard Punycode.label [224,164,173,224,164,190,224,164,176,224,164,164] == [120,110,45,45,104,50,98,114,106,57,99]
#guard Punycode.label [216,168,216,167,216,177,216,170] == [120,110,45,45,109,103,98,98,104,49,97]
#guard Punycode.label [216,168,218,190,216,167,216,177,216,170] == [120,110,45,45,109,103,98,98,104,49,97,55,49,101]
#guard Punycode.label [224,176,173,224,176,190,224,176,176,224,176,164,224,177,141] == [120,110,45,45,102,112,99,114,106,57,99,51,100]
#guard Punycode.label [224,170,173,224,170,190,224,170,176,224,170,164] == [120,110,45,45,103,101,99,114,106,57,99]
#guard Punycode.label [224,168,173,224,168,190,224,168,176,224,168,164] == [120,110,45,45,115,57,98,114,106,57,99]
#guard Punycode.label [224,166,173,224,166,190,224,166,176,224,166,164] == [120,110,45,45,52,53,98,114,106,57,99]
#guard Punycode.label [224,174,135,224,174,168,224,175,141,224,174,164,224,174,191,224,174,175,224,174,190] == [120,110,45,45,120,107,99,50,100,108,51,97,53,101,101,48,104]
#guard Punycode.label [216,185,216,177,216,167,217,130] == [120,110,45,45,109,103,98,116,120,50,98]
#guard Punycode.label [216,167,217,132,216,167,216,177,216,175,217,134] == [120,110,45,45,109,103,98,97,121,104,55,103,112,97]
#guard Punycode.label [237,149,156,234,181,173] == [120,110,45,45,51,101,48,98,55,48,55,101]
#guard Punycode.label [210,155,208,176,208,183] == [120,110,45,45,56,48,97,111,50,49,97]
#guard Punycode.label [224,186,165,224,186,178,224,186,167] == [120,110,45,45,113,55,99,101,54,97]
#guard Punycode.label [224,182,189,224,182,130,224,182,154,224,183,143] == [120,110,45,45,102,122,99,50,99,57,101,50,99]
#guard Punycode.label [224,174,135,224,174,178,224,174,153,224,175,141,224,174,149,224,175,136] == [120,110,45,45,120,107,99,50,97,108,51,104,121,101,50,97]
#guard Punycode.label [216,167,217,132,217,133,216,186,216,177,216,168] == [120,110,45,45,109,103,98,99,48,97,57,97,122,99,103]
#guard Punycode.label [208,188,208,186,208,180] == [120,110,45,45,100,49,97,108,102]
#guard Punycode.label [208,188,208,190,208,189] == [120,110,45,45,108,49,97,99,99]
#guard Punycode.label [230,190,179,233,150,128] == [120,110,45,45,109,105,120,56,57,49,102]
#guard Punycode.label [230,190,179,233,151,168] == [120,110,45,45,109,105,120,48,56,50,102]
#guard Punycode.label [217,133,217,132,217,138,216,179,217,138,216,167] == [120,110,45,45,109,103,98,120,52,99,100,48,97,98]
#guard Punycode.label [216,185,217,133,216,167,217,134] == [120,110,45,45,109,103,98,57,97,119,98,102]
#guard Punycode.label [217,190,216,167,218,169,216,179,216,170,216,167,217,134] == [120,110,45,45,109,103,98,97,105,57,97,122,103,113,112,54,106]
#guard Punycode.label [217,190,216,167,217,131,216,179,216,170,216,167,217,134] == [120,110,45,45,109,103,98,97,105,57,97,53,101,118,97,48,48,98]
#guard Punycode.label [217,129,217,132,216,179,216,183,217,138,217,134] == [120,110,45,45,121,103,98,105,50,97,109,109,120]
#guard Punycode.label [209,129,209,128,208,177] == [120,110,45,45,57,48,97,51,97,99]
#guard Punycode.label [208,176,208,186] == [120,110,45,45,56,48,97,117]
#guard Punycode.label [208,190,208,177,209,128] == [120,110,45,45,57,48,97,122,104]
#guard Punycode.label [208,190,208,180] == [120,110,45,45,100,49,97,116]
#guard Punycode.label [208,190,209,128,208,179] == [120,110,45,45,99,49,97,118,103]
#guard Punycode.label [208,191,209,128] == [120,110,45,45,111,49,97,99]
#guard Punycode.label [209,131,208,191,209,128] == [120,110,45,45,111,49,97,99,104]
#guard Punycode.label [209,128,209,132] == [120,110,45,45,112,49,97,105]
#guard Punycode.label [217,130,216,183,216,177] == [120,110,45,45,119,103,98,108,54,97]
#guard Punycode.label [216,167,217,132,216,179,216,185,217,136,216,175,217,138,216,169] == [120,110,45,45,109,103,98,101,114,112,52,97,53,100,52,97,114]
#guard Punycode.label [216,167,217,132,216,179,216,185,217,136,216,175,219,140,216,169] == [120,110,45,45,109,103,98,101,114,112,52,97,53,100,52,97,56,55,103]
#guard Punycode.label [216,167,217,132,216,179,216,185,217,136,216,175,219,140,219,131] == [120,110,45,45,109,103,98,113,108,121,55,99,48,97,54,55,102,98,99]
#guard Punycode.label [216,167,217,132,216,179,216,185,217,136,216,175,217,138,217,135] == [120,110,45,45,109,103,98,113,108,121,55,99,118,97,102,114]
#guard Punycode.label [216,179,217,136,216,175,216,167,217,134] == [120,110,45,45,109,103,98,112,108,50,102,104]
#guard Punycode.label [230,150,176,229,138,160,229,157,161] == [120,110,45,45,121,102,114,111,52,105,54,55,111]
#guard Punycode.label [224,174,154,224,174,191,224,174,153,224,175,141,224,174,149,224,174,170,224,175,141,224,174,170,224,175,130,224,174,176,224,175,141] == [120,110,45,45,99,108,99,104,99,48,101,97,48,98,50,103,50,97,57,103,99,100]
#guard Punycode.label [216,179,217,136,216,177,217,138,216,169] == [120,110,45,45,111,103,98,112,102,56,102,108]
#guard Punycode.label [216,179,217,136,216,177,217,138,216,167] == [120,110,45,45,109,103,98,116,102,56,102,108]
#guard Punycode.label [224,185,132,224,184,151,224,184,162] == [120,110,45,45,111,51,99,119,52,104]
#guard Punycode.label [224,184,151,224,184,171,224,184,178,224,184,163] == [120,110,45,45,111,51,99,121,120,50,97]
#guard Punycode.label [224,184,152,224,184,184,224,184,163,224,184,129,224,184,180,224,184,136] == [120,110,45,45,49,50,99,111,48,99,51,98,52,101,118,97]
#guard Punycode.label [224,185,128,224,184,153,224,185,135,224,184,149] == [120,110,45,45,109,51,99,104,48,106,51,97]
#guard Punycode.label [224,184,163,224,184,177,224,184,144,224,184,154,224,184,178,224,184,165] == [120,110,45,45,104,51,99,117,122,107,49,100,105]
#guard Punycode.label [224,184,168,224,184,182,224,184,129,224,184,169,224,184,178] == [120,110,45,45,49,50,99,49,102,101,48,98,114]
#guard Punycode.label [224,184,173,224,184,135,224,184,132,224,185,140,224,184,129,224,184,163] == [120,110,45,45,49,50,99,102,105,56,105,120,98,56,108]
#guard Punycode.label [216,170,217,136,217,134,216,179] == [120,110,45,45,112,103,98,115,48,100,104]
#guard Punycode.label [229,143,176,231,129,163] == [120,110,45,45,107,112,114,121,53,55,100]
#guard Punycode.label [229,143,176,230,185,190] == [120,110,45,45,107,112,114,119,49,51,100]
#guard Punycode.label [232,135,186,231,129,163] == [120,110,45,45,110,110,120,51,56,56,97]
#guard Punycode.label [209,131,208,186,209,128] == [120,110,45,45,106,49,97,109,104]
#guard Punycode.label [216,167,217,132,217,138,217,133,217,134] == [120,110,45,45,109,103,98,50,100,100,101,115]
#guard Punycode.label [224,164,149,224,165,137,224,164,174] == [120,110,45,45,49,49,98,52,99,51,100]
#guard Punycode.label [227,130,187,227,131,188,227,131,171] == [120,110,45,45,49,99,107,50,101,49,98]
#guard Punycode.label [228,189,155,229,177,177] == [120,110,45,45,49,113,113,119,50,51,97]
#guard Punycode.label [230,133,136,229,150,132] == [120,110,45,45,51,48,114,114,55,121]
#guard Punycode.label [233,155,134,229,155,162] == [120,110,45,45,51,98,115,116,48,48,109]
#guard Punycode.label [229,156,168,231,186,191] == [120,110,45,45,51,100,115,52,52,51,103]
#guard Punycode.label [231,130,185,231,156,139] == [120,110,45,45,51,112,120,117,56,107]
#guard Punycode.label [224,184,132,224,184,173,224,184,161] == [120,110,45,45,52,50,99,50,100,57,97]
#guard Punycode.label [229,133,171,229,141,166] == [120,110,45,45,52,53,113,49,49,99]
#guard Punycode.label [217,133,217,136,217,130,216,185] == [120,110,45,45,52,103,98,114,105,109]
#guard Punycode.label [229,133,172,231,155,138] == [120,110,45,45,53,53,113,119,52,50,103]
#guard Punycode.label [233,166,153,230,160,188,233,135,140,230,139,137] == [120,110,45,45,53,115,117,51,52,106,57,51,54,98,103,115,103]
#guard Punycode.label [231,189,145,231,171,153] == [120,110,45,45,53,116,122,109,53,103]
#guard Punycode.label [231,167,187,229,138,168] == [120,110,45,45,54,102,114,122,56,50,103]
#guard Punycode.label [230,136,145,231,136,177,228,189,160] == [120,110,45,45,54,113,113,57,56,54,98,51,120,108]
#guard Punycode.label [208,188,208,190,209,129,208,186,208,178,208,176] == [120,110,45,45,56,48,97,100,120,104,107,115]
#guard Punycode.label [208,186,208,176,209,130,208,190,208,187,208,184,208,186] == [120,110,45,45,56,48,97,113,101,99,100,114,49,97]
#guard Punycode.label [208,190,208,189,208,187,208,176,208,185,208,189] == [120,110,45,45,56,48,97,115,101,104,100,98]
#guard Punycode.label [209,129,208,176,208,185,209,130] == [120,110,45,45,56,48,97,115,119,103]
#guard Punycode.label [232,129,148,233,128,154] == [120,110,45,45,56,121,48,97,48,54,51,97]
#guard Punycode.label [215,167,215,149,215,157] == [120,110,45,45,57,100,98,113,50,97]
#guard Punycode.label [230,151,182,229,176,154] == [120,110,45,45,57,101,116,53,50,117]
#guard Punycode.label [229,190,174,229,141,154] == [120,110,45,45,57,107,114,116,48,48,97]
#guard Punycode.label [230,183,161,233,169,172,233,148,161] == [120,110,45,45,98,52,119,54,48,53,102,101,114,100]
#guard Punycode.label [227,131,149,227,130,161,227,131,131,227,130,183,227,131,167,227,131,179] == [120,110,45,45,98,99,107,49,98,57,97,53,100,114,101,52,99]
#guard Punycode.label [224,164,168,224,165,135,224,164,159] == [120,110,45,45,99,50,98,114,55,103]
#guard Punycode.label [227,130,185,227,131,136,227,130,162] == [120,110,45,45,99,99,107,50,98,51,98]
#guard Punycode.label [227,130,162,227,131,158,227,130,190,227,131,179] == [120,110,45,45,99,99,107,119,99,120,101,116,100]
#guard Punycode.label [236,130,188,236,132,177] == [120,110,45,45,99,103,52,98,107,105]
#guard Punycode.label [229,149,134,230,160,135] == [120,110,45,45,99,122,114,54,57,52,98]
#guard Punycode.label [229,149,134,229,186,151] == [120,110,45,45,99,122,114,115,48,116]
#guard Punycode.label [229,149,134,229,159,142] == [120,110,45,45,99,122,114,117,50,100]
#guard Punycode.label [208,180,208,181,209,130,208,184] == [120,110,45,45,100,49,97,99,106,51,98]
#guard Punycode.label [227,131,157,227,130,164,227,131,179,227,131,136] == [120,110,45,45,101,99,107,118,100,116,99,57,100]
#guard Punycode.label [230,150,176,233,151,187] == [120,110,45,45,101,102,118,121,56,56,104]
#guard Punycode.label [229,174,182,233,155,187] == [120,110,45,45,102,99,116,52,50,57,107]
#guard Punycode.label [217,131,217,136,217,133] == [120,110,45,45,102,104,98,101,105]
#guard Punycode.label [228,184,173,230,150,135,231,189,145] == [120,110,45,45,102,105,113,50,50,56,99,53,104,115]
#guard Punycode.label [228,184,173,228,191,161] == [120,110,45,45,102,105,113,54,52,98]
#guard Punycode.label [229,168,177,228,185,144] == [120,110,45,45,102,106,113,55,50,48,97]
#guard Punycode.label [232,176,183,230,173,140] == [120,110,45,45,102,108,119,51,53,49,101]
#guard Punycode.label [233,155,187,232,168,138,231,155,136,231,167,145] == [120,110,45,45,102,122,121,115,56,100,54,57,117,118,103,109]
#guard Punycode.label [232,180,173,231,137,169] == [120,110,45,45,103,50,120,120,52,56,99]
#guard Punycode.label [227,130,175,227,131,169,227,130,166,227,131,137] == [120,110,45,45,103,99,107,114,51,102,48,102]
#guard Punycode.label [233,128,154,232,178,169] == [120,110,45,45,103,107,51,97,116,49,101]
#guard Punycode.label [231,189,145,229,186,151] == [120,110,45,45,104,120,116,56,49,52,101]
#guard Punycode.label [224,164,184,224,164,130,224,164,151,224,164,160,224,164,168] == [120,110,45,45,105,49,98,54,98,49,97,54,97,50,101]
#guard Punycode.label [233,164,144,229,142,133] == [120,110,45,45,105,109,114,53,49,51,110]
#guard Punycode.label [208,186,208,190,208,188] == [120,110,45,45,106,49,97,101,102]
#guard Punycode.label [228,186,154,233,169,172,233,128,138] == [120,110,45,45,106,108,113,52,56,48,110,50,114,103]
#guard Punycode.label [233,163,159,229,147,129] == [120,110,45,45,106,118,114,49,56,57,109]
#guard Punycode.label [233,163,158,229,136,169,230,181,166] == [120,110,45,45,107,99,114,120,55,55,100,49,120,52,97]
#guard Punycode.label [230,137,139,230,156,186] == [120,110,45,45,107,112,117,116,51,105]
#guard Punycode.label [216,167,216,177,216,167,217,133,217,131,217,136] == [120,110,45,45,109,103,98,97,51,97,51,101,106,116]
#guard Punycode.label [216,167,217,132,216,185,217,132,217,138,216,167,217,134] == [120,110,45,45,109,103,98,97,55,99,48,98,98,110,48,97]
#guard Punycode.label [216,168,216,167,216,178,216,167,216,177] == [120,110,45,45,109,103,98,97,98,50,98,100]
#guard Punycode.label [216,167,216,168,217,136,216,184,216,168,217,138] == [120,110,45,45,109,103,98,99,97,55,100,122,100,111]
#guard Punycode.label [217,131,216,167,216,171,217,136,217,132,217,138,217,131] == [120,110,45,45,109,103,98,105,52,101,99,101,120,112]
#guard Punycode.label [217,135,217,133,216,177,216,167,217,135] == [120,110,45,45,109,103,98,116,51,100,104,100]
#guard Punycode.label [235,139,183,236,187,180] == [120,110,45,45,109,107,49,98,117,52,52,99]
#guard Punycode.label [216,180,216,168,217,131,216,169] == [120,110,45,45,110,103,98,99,53,97,122,100]
#guard Punycode.label [216,168,217,138,216,170,217,131] == [120,110,45,45,110,103,98,101,57,101,48,97]
#guard Punycode.label [216,185,216,177,216,168] == [120,110,45,45,110,103,98,114,120]
#guard Punycode.label [230,156,186,230,158,132] == [120,110,45,45,110,113,118,55,102]
#guard Punycode.label [231,187,132,231,187,135,230,156,186,230,158,132] == [120,110,45,45,110,113,118,55,102,115,48,48,101,109,97]
#guard Punycode.label [229,129,165,229,186,183] == [120,110,45,45,110,121,113,121,50,54,97]
#guard Punycode.label [230,139,155,232,129,152] == [120,110,45,45,111,116,117,55,57,54,100]
#guard Punycode.label [209,128,209,131,209,129] == [120,110,45,45,112,49,97,99,102]
#guard Punycode.label [229,164,167,230,139,191] == [120,110,45,45,112,115,115,121,50,117]
#guard Punycode.label [227,129,191,227,130,147,227,129,170] == [120,110,45,45,113,57,106,121,98,52,99]
#guard Punycode.label [227,130,176,227,131,188,227,130,176,227,131,171] == [120,110,45,45,113,99,107,97,49,112,109,99]
#guard Punycode.label [228,184,150,231,149,140] == [120,110,45,45,114,104,113,118,57,54,103]
#guard Punycode.label [230,155,184,231,177,141] == [120,110,45,45,114,111,118,117,56,56,98]
#guard Punycode.label [231,189,145,229,157,128] == [120,110,45,45,115,101,115,53,53,52,103]
#guard Punycode.label [235,139,183,235,132,183] == [120,110,45,45,116,54,48,98,53,54,97]
#guard Punycode.label [227,130,179,227,131,160] == [120,110,45,45,116,99,107,119,101]
#guard Punycode.label [229,164,169,228,184,187,230,149,153] == [120,110,45,45,116,105,113,52,57,120,113,121,106]
#guard Punycode.label [230,184,184,230,136,143] == [120,110,45,45,117,110,117,112,52,121]
#guard Punycode.label [118,101,114,109,195,182,103,101,110,115,98,101,114,97,116,101,114] == [120,110,45,45,118,101,114,109,103,101,110,115,98,101,114,97,116,101,114,45,99,116,98]
#guard Punycode.label [118,101,114,109,195,182,103,101,110,115,98,101,114,97,116,117,110,103] == [120,110,45,45,118,101,114,109,103,101,110,115,98,101,114,97,116,117,110,103,45,112,119,98]
#guard Punycode.label [228,188,129,228,184,154] == [120,110,45,45,118,104,113,117,118]
#guard Punycode.label [228,191,161,230,129,175] == [120,110,45,45,118,117,113,56,54,49,98]
#guard Punycode.label [229,152,137,233,135,140,229,164,167,233,133,146,229,186,151] == [120,110,45,45,119,52,114,56,53,101,108,56,102,104,117,53,100,110,114,97]
#guard Punycode.label [229,152,137,233,135,140] == [120,110,45,45,119,52,114,115,52,48,108]
#guard Punycode.label [229,185,191,228,184,156] == [120,110,45,45,120,104,113,53,50,49,98]
#guard Punycode.label [230,148,191,229,138,161] == [120,110,45,45,122,102,114,49,54,52,98]
#guard Punycode.label [103,195,188,110,115,116,105,103,98,101,115,116,101,108,108,101,110] == [120,110,45,45,103,110,115,116,105,103,98,101,115,116,101,108,108,101,110,45,122,118,98]
#guard Punycode.label [103,195,188,110,115,116,105,103,108,105,101,102,101,114,110] == [120,110,45,45,103,110,115,116,105,103,108,105,101,102,101,114,110,45,119,111,98]
#guard Punycode.label [104,195,164,107,107,105,110,101,110] == [120,110,45,45,104,107,107,105,110,101,110,45,53,119,97]
#guard Punycode.label [208,177,208,184,208,183] == [120,110,45,45,57,48,97,109,99]
#guard Punycode.label [208,186,209,128,209,139,208,188] == [120,110,45,45,106,49,97,101,108,56,98]
#guard Punycode.label [208,188,208,184,209,128] == [120,110,45,45,104,49,97,104,110]
#guard Punycode.label [208,188,209,129,208,186] == [120,110,45,45,106,49,97,100,112]
#guard Punycode.label [209,129,208,176,208,188,208,176,209,128,208,176] == [120,110,45,45,56,48,97,97,97,48,99,118,97,99]
#guard Punycode.label [209,129,208,190,209,135,208,184] == [120,110,45,45,104,49,97,108,105,122]
#guard Punycode.label [209,129,208,191,208,177] == [120,110,45,45,57,48,97,49,97,102]
#guard Punycode.label [209,143] == [120,110,45,45,52,49,97]
#guard Punycode.label [219,171,228,165,140,49,206,137,226,128,135] == [120,110,45,45,49,45,112,106,98,48,49,120,121,56,57,97,104,101,55,98]
#guard Punycode.label [120,218,153,235,168,162,217,133,233,189,149,242,178,161,162,97,224,169,155,243,147,139,147,231,144,143,232,188,146,49,242,135,149,173,215,170,50,240,155,128,139] == [120,110,45,45,120,97,49,50,45,100,120,102,55,53,99,108,115,115,52,118,107,116,49,120,122,112,52,98,106,110,118,98,107,104,53,100,50,99,119,50,98,108,110,112,50,110,121,54,52,110,99,119,52,53,55,98]
#guard Punycode.label [233,153,179,241,131,140,179,114,117,235,184,144,207,160,223,136,229,150,169,52,232,165,154,221,147,111,230,189,191,199,162] == [120,110,45,45,114,117,52,111,45,121,112,98,49,55,49,97,119,113,105,121,48,97,120,48,52,50,99,50,56,51,98,103,112,51,99,111,51,54,97,122,118,52,104,54,119,49,54,106]
#guard Punycode.label [216,159,236,147,187,208,130,226,142,161,232,181,156,230,155,154,194,188,203,183,234,149,164,206,166,227,140,168,194,153] == [120,110,45,45,122,97,51,101,55,56,102,57,116,50,110,118,56,104,51,116,53,101,120,55,122,97,54,104,49,104,116,113,114,100,117,105,114,99,114,104,56,100]
#guard Punycode.label [56,53,221,135,208,172,240,146,187,132,221,155,239,139,156,241,146,139,143,211,189,99,205,170,200,153,243,163,170,146,205,154,194,131,213,188,229,179,133,194,185,234,170,167,107,237,145,166,221,143,228,165,154,100,97] == [120,110,45,45,56,53,99,107,100,97,45,121,97,54,52,98,57,53,104,122,53,100,56,101,48,54,103,119,48,100,55,54,98,114,50,109,55,100,55,104,121,48,49,56,105,112,100,120,99,103,115,116,114,105,104,106,103,106,98,112,102,53,54,56,108,56,53,57,52,112,56,109,113,122,111]
#guard Punycode.label [113,103,227,157,130,196,142,112,199,152,234,183,176,231,177,167,232,156,154,194,176,204,191,200,129,112,232,170,150,243,173,128,159] == [120,110,45,45,113,103,112,112,45,55,103,97,54,55,99,104,56,98,111,106,116,50,104,102,120,51,114,106,55,54,103,100,51,48,97,112,113,106,50,120,56,106,119,53,119,51,53,99]
#guard Punycode.label [242,131,153,131,105,106,210,140,233,141,177,234,165,186,232,176,191,210,176,230,180,152,237,150,170,214,140,217,166,109,229,153,175,100,203,162,231,138,138,198,139,98,200,189,243,187,189,141,53,108,200,165,222,172,200,141,215,147] == [120,110,45,45,105,106,109,100,98,53,108,45,102,48,98,55,56,105,51,103,115,106,114,52,101,102,120,106,111,111,97,111,48,105,48,54,97,100,49,101,54,53,105,110,117,49,53,98,48,121,104,100,117,53,120,97,110,108,57,106,112,117,56,97,101,115,55,104,100,52,117,107,99,119,50,51,57,97,104,115,56,52,107]
#guard Punycode.label [52,121,224,178,161,116,233,160,183,229,187,142,202,161,238,153,179,211,161,222,143,233,131,137,211,130,98] == [120,110,45,45,52,121,116,98,45,55,104,99,52,56,51,97,103,103,56,54,114,120,55,109,118,104,49,115,110,53,111,101,56,118,115,97,98,112,54,117]
#guard Punycode.label [106,241,189,130,162,117] == [120,110,45,45,106,117,45,120,55,55,54,106]
#guard Punycode.label [202,138,204,184,111,234,138,158,235,188,145,226,170,166,218,169,98,206,138,237,135,129,104,213,171,223,168,212,144,212,135,113,203,157,223,166,113,98] == [120,110,45,45,111,98,104,113,113,98,45,111,56,99,50,56,100,111,122,52,121,56,48,107,99,100,49,57,99,100,50,106,100,118,102,49,97,54,48,51,50,109,122,106,55,116,119,55,116,100,51,100,112,100]
#guard Punycode.label [45,103,237,136,181,111,233,184,184,197,172,215,178,102,206,134,233,139,189,242,166,162,164,216,177,197,141,116,45,239,179,180,116,204,129,196,131,243,185,153,163,109,236,188,165,244,128,133,164,228,169,147,109,201,184,220,143] == [120,110,45,45,45,103,111,102,116,45,116,109,109,45,119,99,98,52,50,102,104,108,109,48,106,121,56,98,52,48,99,110,50,114,120,52,97,112,56,105,54,116,56,51,98,113,121,120,107,52,106,117,98,105,55,50,111,48,121,111,97,100,55,53,118,102,51,112,56,57,98,106,111,50,53,103,50,48,105,114,97]
#guard Punycode.label [49,57,228,136,184,203,180,107,221,134,223,158,204,172,101] == [120,110,45,45,49,57,107,101,45,49,116,99,49,53,97,51,56,118,48,56,97,100,122,50,51,97]
#guard Punycode.label [111,202,164,196,145,224,182,129,229,137,179,230,143,179,221,166,226,135,150] == [120,110,45,45,111,45,108,105,97,50,50,106,105,57,105,106,120,105,108,121,53,97,55,100,53,101,57,105,51,97]
#guard Punycode.label [229,175,189,107,105,242,179,174,171,216,172,223,154,226,161,149,226,177,133,217,135,116,234,158,159,239,160,187,217,184,241,185,139,170,48,195,163,235,139,179] == [120,110,45,45,107,105,116,48,45,106,111,97,57,50,50,102,111,102,51,111,55,57,104,122,57,49,106,50,98,106,103,109,56,108,51,113,51,105,100,102,55,97,98,103,52,114,108,100,107,51,115,110,55,99,120,100]
#guard Punycode.label [100,231,169,154,233,146,156,49,231,176,140,117,52,122] == [120,110,45,45,100,49,117,52,122,45,117,49,54,109,53,56,103,104,114,53,101]
#guard Punycode.label [118,212,191,112,242,157,177,187,206,181,101,45,116,214,176,242,131,164,175,52,228,134,157,229,185,130,223,129,234,189,133,110,100,234,180,177,227,131,146] == [120,110,45,45,118,112,101,45,116,52,110,100,45,103,98,103,50,53,48,98,120,57,97,111,122,110,53,51,57,109,114,101,49,98,122,49,55,101,117,54,57,109,108,110,104,51,111,56,56,49,103,101,52,116,118,98]
#guard Punycode.label [239,136,140,115,238,165,151,199,146,236,146,133,196,174,239,150,135,232,174,146,199,169,48,57,237,129,130,121,230,132,149,221,131,98,196,185] == [120,110,45,45,115,48,57,121,98,45,52,51,97,53,102,118,55,100,55,102,111,49,50,99,120,48,52,118,101,116,50,100,57,121,50,103,102,109,56,97,119,118,56,101,54,100,51,97,54,109,109]
#guard Punycode.label [102,101,241,151,142,184,240,185,191,143,223,164,120,243,173,169,190,223,135,198,130,232,147,171,241,141,129,160,211,133,197,177,228,188,149,56,108,212,161,111,227,179,164,105,202,175,218,143,49,237,156,131,227,140,128,209,173] == [120,110,45,45,102,101,120,56,108,111,105,49,45,99,49,98,51,111,113,54,107,55,54,103,113,54,97,53,122,98,55,121,108,109,119,102,98,111,97,110,50,50,53,100,110,106,112,98,57,57,49,101,101,106,117,109,111,112,48,110,107,99,103,56,105,118,116,119,120,98,110,110,110,121,97,119,101,106,48,49,98]
#guard Punycode.label [236,179,161,120,102,240,156,151,151,45,215,164,234,184,190,53,219,177,210,134,236,168,180,194,129,49,211,144] == [120,110,45,45,120,102,45,53,49,45,107,97,54,49,51,101,56,113,97,112,49,102,53,119,100,114,54,48,54,101,106,101,107,99,103,106,104,120,110,52,50,103]
#guard Punycode.label [217,153,232,152,135,120,211,180,113,236,131,167,238,145,148,227,171,169,243,188,149,133,232,177,148,217,181,229,152,170,231,172,139] == [120,110,45,45,120,113,45,48,49,99,48,52,108,100,101,120,48,55,52,97,112,52,118,98,55,119,57,99,53,119,117,97,56,109,111,54,110,48,108,110,51,119,100,55,52,49,48,51,99]
#guard Punycode.label [227,170,134,194,135,233,177,144,206,189,213,185,217,158,236,158,175,111,234,184,148,97,214,136,121,238,162,165,100,234,139,191,112,231,133,128,233,141,147,208,178,232,144,139] == [120,110,45,45,111,97,121,100,112,45,104,98,97,56,54,56,99,53,48,97,54,55,102,109,101,120,49,104,122,118,50,121,57,120,55,102,112,56,52,98,115,53,54,98,117,98,52,97,107,48,120,53,103,56,98,110,120,51,103,52,48,114,103]
#guard Punycode.label [195,156,102,231,144,175,100,224,180,141,106] == [120,110,45,45,102,100,106,45,115,107,97,49,50,55,109,57,52,57,108]
#guard Punycode.label [113,227,181,185,201,165,228,179,161,54,231,191,138,217,164,115,235,186,163,242,154,135,161,217,171,56,209,158,238,183,161,235,189,143,111,224,191,145,238,185,145,229,164,136,242,143,140,156,227,162,157,106,233,177,130] == [120,110,45,45,113,54,115,56,111,106,45,98,49,99,55,53,49,98,101,120,102,98,99,49,51,56,108,50,50,53,105,49,103,110,119,49,52,99,115,100,122,98,116,117,55,105,103,102,54,100,56,107,51,102,113,120,99,116,54,51,53,97,107,54,98,48,52,51,52,53,113,55,57,56,120,97]
#guard Punycode.label [223,182,234,140,179,243,187,141,149,198,155,239,147,148,230,145,176,206,180,109,229,152,180,110,209,176,241,175,167,178,97,227,189,176,232,154,148] == [120,110,45,45,109,110,97,45,109,54,97,57,57,120,107,54,97,106,48,111,109,119,56,106,115,50,119,98,99,48,51,97,99,114,50,102,51,48,57,99,49,48,120,108,117,52,48,48,111,103,56,57,112,105]
#guard Punycode.label [217,138,243,178,156,183,220,179,107,121,49,199,153,242,136,172,167,231,185,171,206,157,112,212,191,109,240,167,170,158,45,229,167,143,238,164,144,223,153,106,236,168,177,237,140,178,240,151,177,156,222,130] == [120,110,45,45,107,121,49,112,109,45,106,45,55,105,99,50,56,49,98,113,53,101,122,114,100,53,119,100,119,51,97,48,56,97,106,49,57,50,102,103,111,107,101,101,104,49,108,112,52,55,97,50,50,53,102,116,119,48,53,97,49,50,49,56,97,54,51,54,55,114,100,55,109,121,105]
#guard Punycode.label [212,132,198,138,115,240,162,138,145,210,179,225,139,181,241,140,136,138,200,133,104,235,159,144,227,164,162,230,175,131,202,164,242,140,157,168,107,213,151,234,173,172,195,188,243,163,145,173,216,177,231,146,147,240,179,184,161] == [120,110,45,45,115,104,107,45,106,111,97,48,50,101,110,119,122,55,97,110,54,105,48,117,97,102,48,97,116,50,101,106,54,56,100,98,122,48,104,111,101,119,103,57,118,49,97,120,110,55,112,115,57,115,98,57,115,122,55,104,114,54,102,54,97,109,107,108,48,99,56,112,99,122,105,104,100,113,50,104]
#guard Punycode.label [100,102,109,238,168,167,101,244,128,141,170,197,139,240,164,162,165,98,198,134,236,173,174,239,135,159,217,164,196,185,116,98,225,155,163,229,160,174,228,170,163,237,154,146,115,111,200,164] == [120,110,45,45,100,102,109,101,98,116,98,115,111,45,57,114,98,48,114,55,48,97,108,56,100,98,57,122,55,106,52,100,105,98,55,107,55,100,120,98,108,115,49,51,97,112,105,111,98,104,51,51,101,48,52,55,97,98,54,57,52,108,118,51,120,49,57,97]
#guard Punycode.label [243,152,143,147,244,134,150,153,49,211,184,238,150,180,210,169,222,172,242,165,138,138,227,172,177,210,171,207,134] == [120,110,45,45,49,45,54,109,98,52,57,100,105,97,55,57,97,110,50,108,50,112,56,105,107,99,116,111,118,100,111,48,110,111,55,49,122,98,102,56,112,56,98]
#guard Punycode.label [100,55,203,162,202,174,217,188,194,145,198,176,217,144,204,158,208,157,244,133,166,175,205,169] == [120,110,45,45,100,55,45,115,98,97,50,54,105,105,121,98,53,105,114,111,108,116,116,52,99,50,56,106,48,110,97,107,57,53,50,53,50,98]
#guard Punycode.label [240,184,129,159,240,172,174,147,54,221,147,242,141,168,135,236,156,164,219,160,230,188,143,213,137,241,165,186,152,112,233,160,146,103,122,240,169,169,181,233,142,179,235,187,179,112,57,196,160,237,141,145,234,178,171,232,171,176,224,182,151] == [120,110,45,45,54,112,103,122,112,57,45,103,54,97,56,50,54,102,119,117,100,51,54,97,109,53,55,98,48,51,57,121,100,48,118,99,100,119,122,97,114,121,110,121,120,49,102,98,55,52,99,104,50,52,97,112,109,50,99,111,107,48,56,107,100,116,102,103,49,104,122,53,97,112,99,53,48,105,121,57,98,53,100]
#guard Punycode.label [221,135,219,181,108,221,172,228,144,183,215,167,223,141,244,134,183,151,238,129,164,228,166,173,194,144,236,180,180,222,130,206,186,232,170,147,233,182,168,205,144,231,181,157,115] == [120,110,45,45,108,115,45,111,98,97,48,51,122,101,112,109,56,104,55,54,98,122,115,112,107,116,104,110,52,97,53,55,51,55,99,108,51,111,97,54,119,52,111,110,111,114,98,102,50,121,100,57,53,121,106,100,103,119,99,120,49,119,49,57,102]
#guard Punycode.label [224,165,168,220,147,222,152,242,177,164,128,242,160,169,139,211,150,243,161,131,140,233,179,128,203,170,49,211,166,227,134,184,45,240,162,163,181,206,183,97,239,179,151,45,208,183,119,238,168,173,204,177,219,173] == [120,110,45,45,49,45,97,45,119,45,55,57,99,54,49,99,111,56,97,56,54,97,105,56,98,100,102,57,50,119,49,110,97,55,51,100,50,55,108,53,108,53,112,113,105,57,112,55,105,118,106,120,100,115,99,49,109,52,50,101,117,104,55,54,117,118,117,116,57,97,118,56,108,49,104]
#guard Punycode.label [198,168,194,165,242,149,143,148,198,132] == [120,110,45,45,99,98,97,48,54,98,107,100,110,48,53,51,55,104]
#guard Punycode.label [231,134,180,53,122,231,155,186,223,143,216,185,230,187,163,225,189,164,109,242,133,151,150,226,137,175,51,226,133,148,217,137,45,99,211,134,195,160,241,132,180,170] == [120,110,45,45,53,122,109,51,45,99,45,110,116,97,55,57,48,102,106,111,100,119,101,108,53,111,52,120,55,103,107,106,102,102,57,100,54,49,52,57,97,113,111,106,97,49,114,119,110,54,52,53,49,98,119,108,102,55,101]
#guard Punycode.label [207,155,236,150,186,112,227,151,149,219,152,225,144,180,235,149,131,238,183,140,215,153,215,180,222,189,213,153,226,140,151,108,112,222,154,242,163,176,166,234,168,183,233,141,183,242,188,165,175,226,137,148,118,242,152,190,162,49] == [120,110,45,45,112,108,112,118,49,45,106,104,101,57,56,120,105,51,97,55,103,107,53,102,101,49,99,53,108,117,54,57,107,118,108,52,98,113,110,99,103,49,56,105,52,119,50,116,103,117,49,99,55,51,121,98,112,50,51,100,55,51,119,106,115,51,56,57,49,98,54,103,121,120,97,119,117,109,52,100]
#guard Punycode.label [238,158,166,53,111,198,138,122,213,137,240,173,186,168,213,159,207,143,51] == [120,110,45,45,53,111,122,51,45,99,100,98,49,48,54,97,117,55,99,98,102,108,53,54,49,114,117,103,50,55,97]
#guard Punycode.label [209,174,119,201,174,213,152,236,148,188,235,166,181,198,178,116,198,148,237,159,156,241,189,137,160,209,179,197,178,104,228,134,155,55,225,147,142,215,186,57,57,229,155,144,194,136,238,137,156] == [120,110,45,45,119,116,104,55,57,57,45,49,98,97,49,56,112,122,105,105,107,105,53,101,114,53,106,57,98,120,49,113,119,51,99,107,57,52,104,118,102,55,106,104,49,53,99,102,120,54,117,106,103,115,98,54,122,122,101,54,106,52,98,105,113,121,50,50,100]
#guard Punycode.label [228,129,163,110,117,54,197,185,198,157,105,225,138,128,196,188,226,137,171] == [120,110,45,45,110,117,54,105,45,56,48,97,56,55,97,109,105,55,56,52,106,53,54,51,97,48,118,54,100]
#guard Punycode.label [202,167,205,164,104,243,142,159,164,242,139,187,182,117,53,226,146,185,219,173,236,133,162] == [120,110,45,45,104,117,53,45,56,49,98,57,53,103,105,57,109,117,122,52,100,53,53,49,115,109,109,108,49,108,56,113,117,116,99]
#guard Punycode.label [113,215,174,217,141,212,131,223,184,222,175,115,195,174,226,144,160,109,228,185,133,202,128,210,189,104,197,148,225,166,174,233,141,144,211,177,236,132,161,212,165,115,198,142,105,238,142,172,117,203,150,120] == [120,110,45,45,113,115,109,104,115,105,117,120,45,109,50,97,54,51,104,106,115,117,52,103,101,54,97,118,51,112,109,119,97,121,105,48,117,121,54,105,117,52,98,108,56,109,49,114,98,103,51,49,116,98,104,54,98,104,110,51,110,102,122,119,110,57,54,113,105,52,53,54,103]
#guard Punycode.label [197,177,241,154,148,132,45,194,147,241,147,184,146,211,190,241,131,178,144,218,187,215,175,223,183,206,191,225,150,163,98,235,170,134,98,233,185,159,53,233,148,144,57,243,134,159,134,238,135,152,239,181,178,228,149,164,118,226,151,140,239,170,149,231,144,162] == [120,110,45,45,45,98,98,53,57,118,45,51,100,97,56,56,111,49,53,105,101,116,100,48,57,99,54,55,99,111,54,102,98,111,55,100,102,120,48,99,108,119,57,102,101,99,116,104,107,52,120,101,117,55,111,98,105,120,55,104,48,116,115,104,51,122,110,101,117,48,110,107,107,48,50,56,98,100,109,112,113,98,103,109,56,112,112,122,53,56,50,97]
#guard Punycode.label [228,163,164,239,151,187,225,153,128,231,136,185,203,153,229,189,155,216,152,54,117,239,144,177,211,152,232,147,136,236,167,169,233,180,177,109,220,171,243,155,152,186,226,134,133,117,237,131,150,236,152,180,209,176,235,135,134,227,166,154,206,176,212,146,202,161,226,185,158,122] == [120,110,45,45,54,117,109,117,122,45,116,120,99,49,48,98,111,49,100,109,57,98,119,51,97,109,115,54,49,104,106,119,101,104,54,54,101,119,108,57,97,121,55,53,98,50,53,48,98,117,114,55,99,98,104,51,101,55,51,118,100,49,112,49,100,55,104,119,102,119,54,57,100,105,113,119,101,121,109,116,97,105,102,53,98,55,113,53,111,103,113,107,97,119,115,57,56,57,117]
#guard Punycode.label [234,188,131,107,206,132,237,145,129] == [120,110,45,45,107,45,102,106,98,49,50,56,50,107,120,101,53,97]
#guard Punycode.label [105,54,228,164,172,121,235,177,166,239,166,163,121,242,143,174,177,241,161,150,191,229,190,172,225,173,184,239,189,184,199,137,97,207,171,98,241,177,153,176,235,163,140,233,133,168,121,226,153,188,195,163,211,186,51,54,45,115] == [120,110,45,45,105,54,121,121,97,98,121,51,54,45,115,45,102,56,97,48,48,49,97,112,50,107,105,57,100,98,111,51,106,52,101,118,98,118,113,56,105,54,108,117,100,117,52,114,107,110,52,113,103,108,116,113,97,98,107,54,52,97,52,105,51,97,119,122,55,49,57,100,117,122,51,110,98,113,57,104,52,101]
#guard Punycode.label [122,104,242,178,190,173,234,171,177,210,131,233,151,135,121,237,155,177,113,198,182,113,236,191,146,225,181,170,229,184,139,242,148,149,159] == [120,110,45,45,122,104,121,113,113,45,106,115,98,48,51,49,99,106,114,52,100,112,116,52,104,111,113,50,101,48,119,48,98,100,114,119,102,57,108,116,97,110,53,48,50,48,101,100,55,53,115,98]
#guard Punycode.label [120,50,104,242,131,170,178,55,233,140,130,221,185,104,206,161] == [120,110,45,45,120,50,104,55,104,45,113,54,100,48,48,48,101,49,48,55,50,97,110,50,110,48,108]
#guard Punycode.label [100,99,121,215,181,104,233,143,157,111,226,174,177,121,220,181,115,230,132,132,203,149,115,50,102,236,164,183,213,178,116,104,241,132,184,171,48,228,155,179] == [120,110,45,45,100,99,121,104,111,121,115,115,50,102,116,104,48,45,57,50,103,50,53,49,104,119,53,98,115,49,105,110,49,51,114,110,105,113,101,53,54,121,101,98,102,56,106,108,107,51,105,102,113,107,52,110]
#guard Punycode.label [53,223,140,241,188,168,162,230,169,130,232,177,183,112,235,190,187,108,243,145,163,188,233,142,132,228,178,133,106,239,175,158,201,157,228,184,144,231,143,147,209,179,104,97,195,155,206,166,233,135,165,229,184,148,241,128,137,134] == [120,110,45,45,53,112,108,106,104,97,45,110,115,97,57,57,49,97,121,121,100,113,117,99,104,51,112,55,108,57,115,49,103,101,102,54,49,101,55,102,121,98,122,56,53,97,121,115,49,103,104,112,117,97,56,54,103,55,111,51,118,101,54,110,107,108,110,54,48,107,98,98,54,54,102,51,108,122,55,104]
#guard Punycode.label [225,139,171,238,149,177,199,162] == [120,110,45,45,101,107,97,53,51,56,102,114,105,51,110]
#guard Punycode.label [221,135,210,172,201,156,222,133,218,142,225,162,131,195,170,220,172,239,144,170,114,212,170,221,173,230,181,179,121,238,158,145,203,169,222,190,223,186,51,115] == [120,110,45,45,114,121,51,115,45,102,112,97,51,51,116,107,50,97,55,54,104,114,54,97,119,57,103,121,50,98,101,106,105,114,117,107,119,51,97,112,49,97,49,57,54,114,49,114,53,115,51,52,117,113,121,119,118,98]
#guard Punycode.label [237,142,147,56,228,188,156,119,210,168,233,173,157,195,139,194,157,117,205,178,225,131,146,233,180,173,101,231,168,186,223,154,224,163,159,242,182,154,165,198,171,226,183,177] == [120,110,45,45,56,119,117,101,45,104,101,97,57,121,56,55,99,55,55,102,118,113,100,52,121,108,98,50,99,119,54,57,97,101,114,48,103,99,98,122,101,50,102,57,102,48,49,115,101,115,112,103,119,55,56,120,52,122,107,55,50,98]
#guard Punycode.label [116,231,142,189,229,189,167,234,143,156,216,176,111,228,175,184,230,182,164,212,151,225,181,158,106,242,152,182,174,198,130,112,102,51,53,221,188,227,176,179] == [120,110,45,45,116,111,106,112,102,51,53,45,99,121,98,53,54,51,102,105,48,99,117,50,101,114,52,52,103,53,48,120,101,115,101,49,98,99,54,56,99,110,118,53,98,99,120,118,115,53,49,114,98,105,57,53,55,97]
#guard Punycode.label [211,167,223,168,54,49,237,146,142,224,189,153,243,165,176,160,239,140,137,216,167,215,143,232,186,159,222,185,103,212,177,217,133,108,230,145,190,242,187,158,181,243,133,166,138,45,52,112,225,136,180,101,199,162,54,49] == [120,110,45,45,54,49,103,108,45,52,112,101,54,49,45,114,103,100,49,56,51,103,117,49,97,102,55,100,121,118,98,50,110,50,55,114,98,121,97,51,48,49,105,57,54,108,114,106,53,51,98,56,120,116,103,122,101,121,109,120,52,104,102,111,104,48,51,49,100,51,107,101,122,97,98,115,55,54,102]
#guard Punycode.label [53,206,162,240,181,167,175,107,115,243,170,143,130,230,148,140,97,243,173,155,138,233,180,138] == [120,110,45,45,53,107,115,97,45,118,106,100,52,52,55,48,109,51,53,57,99,104,49,53,52,100,99,105,107,56,108,119,119,98,100]
#guard Punycode.label [214,172,216,156,209,180,244,132,162,141,217,168,221,155,234,138,141,220,168,54,218,158,234,141,189] == [120,110,45,45,54,45,51,119,98,57,52,103,50,109,106,109,122,107,104,55,97,119,108,52,50,51,48,106,120,55,98,121,56,55,54,48,113]
#guard Punycode.label [115,98,231,180,161,228,141,173,200,172,239,179,173,214,129,48,103,219,135,242,146,190,140,236,151,182,120,117,222,134,238,187,144,101,215,159] == [120,110,45,45,115,98,48,103,120,117,101,45,53,49,99,49,57,55,101,57,48,97,50,54,101,116,51,99,119,56,55,52,97,49,50,115,103,53,107,50,105,53,117,50,101,119,101,49,98,117,105,48,54,55,99]
#guard Punycode.label [226,163,156,229,141,150,242,190,158,171,107,236,166,187,212,151,229,149,177,122,243,188,144,164,238,174,160,108,201,154,234,152,150,110,121,213,185,115,239,132,143,216,179,229,154,168,199,157,224,191,187,243,175,175,151,221,190,232,149,156,213,148,114] == [120,110,45,45,107,122,108,110,121,115,114,45,55,106,99,53,51,105,104,57,112,110,116,97,122,110,54,49,102,112,52,103,106,56,51,98,104,103,55,102,120,53,114,104,106,54,104,99,51,102,100,54,54,121,115,118,110,102,116,52,122,103,101,54,115,103,98,106,49,97,103,100,55,55,55,108,107,115,109,54,100,102,103,107,54,97]
#guard Punycode.label [202,181,220,188,196,177,226,149,174,221,182,234,178,177,239,181,138,119,225,151,160,53,199,141,99,240,178,190,143,99,216,185,225,163,176,98,204,169,234,146,140,109,202,161,56,222,156,109,195,186,56] == [120,110,45,45,119,53,99,99,98,109,56,109,56,45,100,57,97,48,49,100,115,50,100,52,55,100,48,104,108,54,100,109,119,121,118,57,100,52,51,97,55,117,102,54,57,116,116,112,110,54,122,56,100,99,57,122,51,98,111,51,105,98,52,99,122,55,97,48,99,122,53,104]
#guard Punycode.label [204,166,197,181,107,196,191,227,191,167,115,241,130,132,131,116,226,181,179,49,98,230,128,165,101,219,153,107,108,103,110,242,145,133,168,221,184,98,236,175,148,118] == [120,110,45,45,107,115,116,49,98,101,107,108,103,110,98,118,45,56,57,98,56,54,101,52,54,114,102,55,113,109,114,99,102,54,48,122,110,106,49,99,122,48,48,103,112,117,57,116,98,116,113,48,107,118,109,119,48,104]
#guard Punycode.label [221,190,243,147,180,134,230,171,179,111,232,149,133,239,164,172,103,48,233,129,130,223,178,220,167,208,166] == [120,110,45,45,111,103,48,45,51,98,100,56,53,57,97,50,111,97,106,48,97,98,55,48,57,99,120,114,121,98,49,55,119,97,57,122,57,119,102,56,113,53,48,97]
#guard Punycode.label [206,171,240,152,176,171,203,171,57,56,226,185,133,105,101,228,163,190,116,51,207,173] == [120,110,45,45,57,56,105,101,116,51,45,50,115,100,57,52,109,103,114,108,49,48,53,97,100,112,118,99,111,112,48,51,99]
#guard Punycode.label [222,151,197,156,235,156,188,215,187,55] == [120,110,45,45,55,45,117,109,97,51,54,54,97,98,122,98,118,55,48,52,98]
#guard Punycode.label [241,178,136,155,236,145,129] == [120,110,45,45,50,53,52,98,49,54,49,57,48,97]
#guard Punycode.label [221,182,221,143,234,162,133,230,159,161,197,182,120,113,235,184,171,241,187,166,178,115,206,185,99] == [120,110,45,45,120,113,115,99,45,102,57,97,49,57,53,97,113,112,105,53,105,105,52,55,55,101,56,99,53,101,53,48,48,98,51,120,52,50,51,97]
#guard Punycode.label [240,147,159,170,104,53,226,176,143,100,210,149,222,157,222,186] == [120,110,45,45,104,53,100,45,115,111,100,52,57,57,97,56,101,122,55,49,119,107,50,49,50,97]
#guard Punycode.label [207,180,231,161,185,209,140,118,100,110,226,168,178,224,181,173,119,119,111,238,184,138,49,227,169,129,227,136,189,220,180,235,179,177,240,153,140,135,51,222,181,119,205,139,100,215,144,233,164,178,229,159,130,239,143,176,225,187,175] == [120,110,45,45,118,100,110,119,119,111,49,51,119,100,45,56,111,103,50,51,114,121,54,97,115,56,108,112,54,102,57,56,98,53,119,55,98,109,55,53,101,121,121,49,98,122,118,55,97,103,103,57,97,51,119,122,107,57,104,116,103,49,101,117,103,105,48,115,104,51,48,113,107,105,107,55,97,109,53,50,54,102]
#guard Punycode.label [221,142,100,242,181,150,155,107,242,131,166,176,220,172,238,186,143,209,166,194,152,114,48,213,167,118,236,128,144,212,155,112] == [120,110,45,45,100,107,114,48,118,112,45,52,101,97,53,48,57,101,120,116,98,120,118,115,57,109,117,108,55,57,48,54,114,57,57,108,101,120,52,55,55,119,100,107,98,48,99]
#guard Punycode.label [105,206,173,217,180,221,189,49,51,242,140,151,140,111,100,53,209,159,239,171,130,199,157,209,186,206,150,211,191,231,173,150,119,119,231,160,146,55,196,180] == [120,110,45,45,105,49,51,111,100,53,119,119,55,45,121,113,98,57,54,112,104,53,105,109,105,55,50,103,118,108,51,52,101,53,117,107,107,108,102,98,51,51,57,100,119,119,110,97,52,107,53,52,100,102,107,49,57,48,97]
#guard Punycode.label [230,141,169,104,220,169,119,219,183,52,212,155,99,199,142,206,179,241,143,137,169,198,155,242,184,187,166,54,211,175] == [120,110,45,45,104,119,52,99,54,45,119,110,98,48,55,97,107,51,107,108,112,100,111,109,48,50,111,100,114,97,52,55,48,55,103,99,108,48,53,106,103,112,117,53,103]
#guard Punycode.label [208,169,203,189,53,241,185,182,135,105,238,128,188,241,140,189,155,216,180,236,144,142,49,211,132,220,174,101,226,131,168,198,153,199,180,210,172,225,133,146,212,185,206,158,118,227,145,172,228,183,181] == [120,110,45,45,53,105,49,101,118,45,107,110,98,49,53,100,56,57,100,117,122,98,114,48,98,110,51,98,101,105,110,56,99,104,57,102,104,49,101,52,53,57,99,53,109,55,99,117,111,50,100,120,110,51,101,118,117,55,120,109,120,52,100,103,107,54,51,115,55,53,118,51,100]
#guard Punycode.label [224,188,142,219,163,239,182,145,208,144,231,164,140,217,183] == [120,110,45,45,99,48,97,52,52,106,104,106,120,50,122,109,109,50,108,120,102,56,103]
#guard Punycode.label [217,186,223,177,204,166,199,144] == [120,110,45,45,118,106,97,55,57,100,57,54,101,52,119,98]
#guard Punycode.label [207,170,234,148,146,232,137,142,204,142,104,228,134,151,227,189,147,234,185,139,226,137,184,231,147,154,105,242,180,171,171,243,155,178,166] == [120,110,45,45,104,105,45,99,118,98,51,57,102,114,49,51,105,108,103,121,98,56,107,100,118,51,57,107,112,107,122,97,51,119,54,101,103,104,118,97,102,107,53,54,53,101,98,55,116,119,98]
#guard Punycode.label [216,187] == [120,110,45,45,54,103,98]
#guard Punycode.label [216,178,212,166,221,139,227,146,148,107,208,171,103,204,135,244,141,132,135,242,190,166,189,229,167,158,219,164,209,160,238,139,160,200,190] == [120,110,45,45,107,103,45,107,100,98,55,49,102,120,53,98,102,106,115,49,99,105,57,99,54,50,98,107,51,97,115,55,53,55,97,98,115,52,100,116,104,54,114,100,53,105,57,121,101,55,111,53,100]
#guard Punycode.label [108,239,187,183,116,240,175,160,158,194,188,205,164] == [120,110,45,45,108,116,45,104,102,97,52,51,121,109,117,51,55,98,57,110,114,119]
#guard Punycode.label [215,137,227,182,136,238,170,128,242,130,191,177,216,150,218,176,120,230,134,164,236,190,181,239,147,181,100,229,167,188,216,175,226,130,130,219,183,219,183,198,185,107,226,179,173,204,154] == [120,110,45,45,120,100,107,45,51,57,97,48,56,111,119,49,103,111,112,97,107,103,111,56,98,110,117,97,48,56,53,57,101,53,122,55,97,100,117,48,99,51,103,55,101,55,117,122,97,56,57,52,48,98,109,49,107,100,110,115,118,98,111,109,54,54,53,100]
#guard Punycode.label [235,173,170,202,183,241,186,178,135,106,241,162,139,188,241,155,134,184,54,104,234,141,144,235,175,135,234,128,188,118,228,135,175,52,195,134,240,189,189,143,51,198,164] == [120,110,45,45,106,54,104,118,52,51,45,102,111,97,49,57,111,114,122,100,101,56,57,119,101,49,54,105,102,122,104,117,120,53,102,109,99,98,57,52,56,53,52,101,98,115,116,48,98,48,110,114,108,121,109,107,51,99]
#guard Punycode.label [198,154,118,243,148,154,184,210,187,200,147,227,179,133,237,144,144] == [120,110,45,45,118,45,101,113,97,56,55,97,119,49,103,113,51,53,104,118,121,116,107,121,118,55,50,112]
#guard Punycode.label [229,151,148] == [120,110,45,45,101,51,114]
#guard Punycode.label [238,173,165,121,208,144,233,174,164,214,183,202,190,119,239,186,176,231,133,144,211,164,241,180,138,172,111,111,231,179,174,231,163,151,195,174,54,48,228,189,138,221,160,119,242,191,129,144,195,160,198,136,232,183,173,195,187,220,186] == [120,110,45,45,121,119,111,111,54,48,119,45,102,119,97,54,106,121,102,54,48,101,98,50,103,115,117,102,52,115,100,109,55,100,106,114,105,108,115,97,116,57,54,52,104,100,100,120,101,105,113,53,97,103,55,114,103,112,57,102,122,53,51,99,102,57,122,119,98,50,107,100,99,104,57,56,52,98,104,119,99,53,103]
#guard Punycode.label [103,198,176,230,150,140,114,97,218,128,233,187,177,209,130,210,130,55,235,179,176,243,161,190,184,54,220,169,231,160,151,109,221,173,226,138,183,102,227,168,165,101,48,242,136,131,138,52,233,171,143,203,162,195,147,224,189,171] == [120,110,45,45,103,114,97,55,54,109,102,101,48,52,45,110,48,97,54,53,120,54,120,102,117,52,102,112,49,97,100,55,117,104,50,99,57,56,97,52,54,50,104,120,119,52,102,51,50,52,101,121,115,116,106,121,101,108,100,52,101,119,105,107,117,118,97,114,105,50,112,117,109,54,48,56,98,114,49,116,105,105]
#guard Punycode.label [244,132,186,128,202,166,242,180,171,154,232,137,139,195,176,107,231,160,158,212,174,204,145] == [120,110,45,45,107,45,111,103,97,55,50,107,107,109,104,49,103,100,50,56,120,54,52,111,97,100,119,52,50,51,99,121,107,56,119,99]
#guard Punycode.label [243,155,171,136,235,138,162,235,157,172,206,175,214,138,97,105,220,146,238,142,184,221,131,237,136,160,242,171,136,143,53,243,185,129,146,231,168,156,212,142,243,142,134,155] == [120,110,45,45,97,105,53,45,102,120,99,50,55,111,102,118,97,104,55,102,104,108,107,52,51,57,102,99,101,107,101,108,57,107,55,55,49,102,52,49,52,98,52,115,119,55,51,99,110,57,100,121,98,109,102,48,117,103,101,101,54,99]
#guard Punycode.label [224,174,191,218,168,100,229,130,134,113] == [120,110,45,45,100,113,45,100,52,100,53,50,51,99,109,112,52,104]
#guard Punycode.label [240,155,133,165,197,165,116,234,172,176,233,170,164,243,181,131,141,52,212,182,225,140,174,99,237,153,172,56,218,134,227,133,178,201,146,225,187,180,222,175,233,160,141,213,170,57,225,167,142,228,175,141,97,203,130] == [120,110,45,45,116,52,99,56,57,97,45,50,107,98,52,49,113,52,50,97,106,51,112,112,113,97,111,48,105,109,52,101,99,119,57,99,99,49,117,111,48,115,108,49,53,101,99,102,53,101,113,48,119,111,116,50,107,97,117,118,56,102,103,49,115,107,104,114,109,52,98,110,101,48,51,49,99]
#guard Punycode.label [207,189,225,165,161,98,243,171,182,184,243,164,143,163,205,150,198,175,242,131,173,144,99,221,176,220,131,112,54,209,146,239,152,135,240,144,188,140,202,153,235,174,139,109,235,162,134,235,134,164,120,221,171,110,234,180,187,114,231,158,167] == [120,110,45,45,98,99,112,54,109,120,110,114,45,55,104,99,55,53,117,106,122,99,104,122,99,48,53,97,115,55,119,48,113,98,99,99,50,48,53,52,98,104,119,56,117,49,122,106,104,98,112,115,97,103,55,54,97,51,52,110,121,108,49,51,97,57,113,110,101,99,116,120,57,52,98,50,110,49,112,105,99,112,119,116,97]
#guard Punycode.label [197,137,52,199,172,216,167,234,129,129,234,159,168,211,173] == [120,110,45,45,52,45,114,108,97,52,48,99,101,48,104,51,120,98,52,50,53,57,98,50,103,108,97]
#guard Punycode.label [224,184,153,238,185,167,104,120,234,173,182,113,207,160,102,198,185,211,141,235,144,150,240,156,162,151,217,157,243,141,180,182] == [120,110,45,45,104,120,113,102,45,51,106,98,56,49,52,97,113,48,98,112,57,101,54,50,121,99,106,53,56,97,100,51,116,97,106,52,51,110,49,48,113,121,98,102,108,51,120]
#guard Punycode.label [102,101,206,139,104,233,157,161,244,139,184,170,236,182,132,97,195,190,196,172,98,240,186,185,163,98,195,150,98] == [120,110,45,45,102,101,104,97,98,98,98,45,51,116,97,49,55,97,107,112,105,57,115,50,49,50,49,99,119,99,49,101,122,52,116,51,103,56,121,113,49,114]
#guard Punycode.label [203,182,51,238,166,182,218,166,118,228,159,186,201,156,241,191,157,152,203,178,229,170,160,233,185,186,51,110,111,225,182,161,108,56,240,181,185,157,223,132] == [120,110,45,45,51,118,51,110,111,108,56,45,52,100,100,52,54,107,98,98,51,55,55,102,107,108,100,50,115,55,104,105,53,49,103,99,113,111,99,117,52,56,109,120,106,121,106,55,48,109,56,102,110,108,115,53,103]
#guard Punycode.label [98,206,180,235,173,159,236,182,155,114,219,154,229,184,164,100,226,154,172,216,183,231,181,152,106,211,146,45,109,203,154,242,151,142,164,242,152,129,155,97,234,161,186,231,163,185,100,215,139] == [120,110,45,45,98,114,100,106,45,109,97,100,45,56,111,101,56,56,115,56,118,101,115,122,100,53,117,98,102,51,100,103,120,56,114,110,113,122,105,119,108,117,100,107,112,113,97,111,108,55,113,118,55,50,99,50,57,122,100,105,102,49,56,55,99,57,100,48,98]
#guard Punycode.label [103,108,226,170,187,235,158,160,224,186,154,217,148,110,227,145,128,239,170,159,104] == [120,110,45,45,103,108,110,104,45,104,100,103,49,50,56,106,103,52,49,99,101,54,112,101,105,52,121,111,57,49,101]
#guard Punycode.label [104,212,157,55] == [120,110,45,45,104,55,45,106,53,99]
#guard Punycode.label [45,205,144,55,206,187,211,132,196,181,51,198,144,241,186,168,168] == [120,110,45,45,45,55,51,45,48,117,97,48,55,98,115,48,103,112,118,97,105,56,100,108,48,50,57,54,101]
#guard Punycode.label [99,226,180,142,121,122,233,191,168,210,133,225,162,159,225,131,143,122,211,154,98,115,229,146,176,240,155,173,170,242,152,164,148,54,239,140,148] == [120,110,45,45,99,121,122,122,98,115,54,45,107,122,103,48,56,101,114,49,52,103,116,55,114,110,55,57,99,49,120,120,103,103,99,53,106,111,122,114,106,56,51,122,120,106,57,121,53,116]
#guard Punycode.label [109,195,171,230,188,143,224,175,141,102,225,136,172] == [120,110,45,45,109,102,45,104,106,97,56,53,50,105,98,120,104,108,113,57,108]
#guard Punycode.label [209,140,241,191,170,179,219,191,226,142,152,243,159,144,130,225,160,190,53,210,153,231,155,132,233,180,147,49,121,219,171,206,132,241,134,153,180,118,122,232,153,191,50,242,135,186,180,210,152,117,228,187,149] == [120,110,45,45,53,49,121,118,122,50,117,45,116,98,102,48,49,112,54,118,97,101,97,52,52,50,101,107,104,111,49,50,116,111,117,57,97,113,117,56,107,103,52,118,102,104,103,110,99,115,119,122,101,111,118,120,54,115,99,57,52,48,101,49,53,108,114,97,102,103,50,51,115]
#guard Punycode.label [218,163,229,183,128,106,203,190,236,139,131,120,53,114,57,53,228,128,138,101,119,220,130,231,175,172,235,150,152,215,143,226,137,143,212,128,98,113,115,51,235,153,175,208,163,228,147,142,228,135,180] == [120,110,45,45,106,120,53,114,57,53,101,119,98,113,115,51,45,57,48,103,55,50,50,98,117,50,100,118,56,100,121,119,101,101,50,98,99,50,51,121,57,105,116,102,108,111,105,51,107,113,55,107,57,107,49,108,116,103,122,107,110,109,54,116,101,100,56,52,104]
#guard Punycode.label [239,174,149,224,183,157,200,149,199,175,121,116,55,232,187,142,48,112,231,160,153,98] == [120,110,45,45,121,116,55,48,112,98,45,111,100,99,55,49,97,50,57,52,103,114,112,57,117,52,103,122,98,109,49,54,113]
#guard Punycode.label [230,162,170,210,151,208,138,223,167,51,236,159,190,222,173,220,174,218,184,210,135,228,177,167,244,134,155,167,118,243,185,180,160,233,148,174,201,171,211,155,235,189,173,228,134,189,100] == [120,110,45,45,51,118,100,45,103,118,98,54,56,114,113,118,97,107,100,118,121,55,55,107,121,55,97,53,50,98,51,116,103,57,50,49,100,53,103,53,97,113,117,50,103,53,51,56,103,99,100,52,102,116,104,54,97,102,55,50,50,56,107,100,109,100,121,97]
#guard Punycode.label [230,175,139,112,199,134,226,145,138,103,199,161,50,214,188,194,179] == [120,110,45,45,112,103,50,45,54,102,97,54,56,107,120,101,57,57,121,49,116,50,101,54,113,51,104]
#guard Punycode.label [54,217,175] == [120,110,45,45,54,45,51,113,99]
#guard Punycode.label [49,116,239,190,180,229,137,128,49,207,171,222,189,231,158,146,199,190,99,205,144,240,178,156,161,237,140,136,241,170,171,162,103,209,145,242,135,151,173,210,184,241,162,173,144,229,146,142,104] == [120,110,45,45,49,116,49,99,103,104,45,114,103,99,57,49,121,49,117,98,106,51,97,110,54,97,52,55,118,54,50,54,119,106,48,103,115,56,53,108,119,50,54,110,110,121,110,102,110,106,56,57,102,117,98,118,120,101,118,103,105,112,99,116,52,56,100]
#guard Punycode.label [209,169,218,189,100,111,121,212,182,117,242,190,155,155,99,239,171,163,236,152,171,199,168,100,113,50,211,149,216,149,242,151,139,152,221,179,121,196,145] == [120,110,45,45,100,111,121,117,99,100,113,50,121,45,121,103,98,52,55,117,118,54,108,110,110,98,118,48,98,49,57,102,113,113,100,48,56,100,107,51,52,51,107,110,108,114,103,109,103,110,50,54,97,108,99,48,119,99]
#guard Punycode.label [226,169,168,224,187,139,230,163,169,229,137,152,215,131,239,159,161,49,194,148,229,163,149,243,152,174,141,236,169,141,233,181,178,231,169,150,235,162,182,231,145,172,197,188,239,134,140,56,218,153,241,169,185,150,195,147,114,213,166,214,169] == [120,110,45,45,49,56,114,45,108,99,97,48,51,97,48,56,97,114,52,114,108,112,97,106,104,108,51,102,104,57,51,98,119,120,57,101,115,114,120,102,114,56,115,97,52,57,56,99,109,114,121,98,109,57,117,110,111,56,108,103,106,113,101,99,115,53,99,109,105,50,105,119,100,51,97,48,112,54,54,48,101,54,116,100,117,106]
#guard Punycode.label [232,128,155,233,180,176,234,129,185,98,230,176,139,212,191] == [120,110,45,45,98,45,113,56,98,49,54,48,48,102,54,48,113,117,104,55,97,103,101,101]
#guard Punycode.label [242,181,184,169,121,223,168,241,144,147,191,214,163,121,52,237,151,132,229,137,169,113,197,191,45,241,134,173,177,198,181] == [120,110,45,45,121,121,52,113,45,45,51,105,98,51,57,97,54,49,121,110,111,102,115,122,48,117,113,55,110,109,51,107,107,51,102,118,102,54,108,122,48,111,50,110]
#guard Punycode.label [111,101,102,233,176,187,225,140,183,105,226,148,178,120,242,130,155,146,57,221,172,243,132,151,150,230,183,166,237,138,151,235,140,146] == [120,110,45,45,111,101,102,105,120,57,45,117,101,107,50,52,50,114,120,53,48,98,50,54,52,108,116,114,56,100,53,106,112,99,98,119,118,101,53,107,114,50,48,97,109,102,114,119,100]
#guard Punycode.label [221,153,99,242,168,161,191,101,99,233,145,186] == [120,110,45,45,99,101,99,45,109,122,102,50,54,55,49,112,117,53,116,49,107]
#guard Punycode.label [213,186,242,146,145,147,197,176,234,180,157,104,222,149,224,184,171,216,172,207,178,226,191,131] == [120,110,45,45,104,45,122,110,97,49,52,113,122,49,98,114,122,97,52,53,100,104,53,115,49,112,57,100,116,48,49,110,55,57,116,49,111]
#guard Punycode.label [112,227,184,134,213,182,110,240,147,179,168,51,198,132,204,190,213,189] == [120,110,45,45,112,110,51,45,50,51,97,52,50,116,106,51,101,115,98,120,49,51,56,101,119,110,116,120]
#guard Punycode.label [99,216,189,200,151,242,133,156,186,228,151,182,202,141,232,151,191,226,175,185,209,158,113,102,198,163,49,235,138,150,241,190,179,186] == [120,110,45,45,99,113,102,49,45,120,103,98,55,48,101,48,122,107,48,105,100,115,102,99,120,51,106,53,122,118,99,114,117,54,105,98,102,122,101,57,121,120,57,118,51,98,115,106]
#guard Punycode.label [119,229,174,151,202,131,198,177,112,240,152,138,159] == [120,110,45,45,119,112,45,103,48,97,51,53,102,121,49,55,51,97,48,54,55,113]
#guard Punycode.label [107,228,169,178,228,139,167,119,230,155,140,236,176,169,45,242,189,166,138,215,185,229,191,146,242,147,176,143] == [120,110,45,45,107,119,45,45,104,117,101,49,48,49,57,101,57,112,106,115,111,48,98,102,120,108,118,109,54,116,105,48,112,55,111,111,56,55,117,98]
#guard Punycode.label [228,186,158,234,148,128,48,51,236,183,153,97,54,241,167,164,189,228,134,174,233,132,148,203,153,213,184,121] == [120,110,45,45,48,51,97,54,121,45,102,55,99,49,49,56,98,102,116,48,109,115,108,121,97,107,53,50,108,121,49,118,98,108,112,121,103,117,98,113,49,113]
#guard Punycode.label [227,180,168,232,133,161,230,179,142,207,135,241,164,159,157] == [120,110,45,45,56,120,97,49,57,52,48,97,116,52,51,97,54,103,114,109,119,51,48,111]
#guard Punycode.label [232,152,168,115,240,162,161,171,229,140,130,228,161,135,232,174,168,198,145,210,171,202,185,53,242,166,182,157,202,157,112,229,182,130,242,148,163,164,215,163,215,130,232,154,176,239,148,154,225,136,161,109,242,178,146,163,115,102,242,181,182,191,45,213,191,207,185,242,139,147,175] == [120,110,45,45,115,53,112,109,115,102,45,45,112,49,98,55,50,118,55,104,49,57,106,49,115,99,56,52,100,120,48,97,101,111,115,49,51,110,122,109,121,111,122,109,111,98,111,121,51,98,57,52,122,109,55,108,99,106,122,55,98,104,108,56,54,99,50,108,119,51,99,113,55,105,51,114,52,53,55,119,97,112,120,116,53,99,114,55,117,52,97,49,100,53,106]
#guard Punycode.label [117,49,113,234,151,170,238,168,162,229,136,143,225,140,191,120,233,138,155,235,131,180,114,223,134,110,212,179,213,140,53,229,184,169] == [120,110,45,45,117,49,113,120,114,110,53,45,102,52,104,57,116,116,56,117,56,109,57,97,101,115,49,110,54,52,54,97,104,112,54,108,108,115,109,99,57,53,117,98,48,101,57,111]
#guard Punycode.label [238,182,180,236,191,128,244,136,159,132,237,149,173,235,150,178,202,139,229,128,171,101,112,235,166,189,197,141,99,220,136,109,121,212,137,194,133,229,188,130,106,200,153,57,232,191,160,194,175,121,235,143,181,122] == [120,110,45,45,101,112,99,109,121,106,57,121,122,45,117,98,97,56,55,98,51,52,100,54,52,100,109,49,98,118,48,116,115,106,105,53,118,48,53,97,98,51,49,98,105,98,51,108,109,50,117,102,113,118,104,121,56,119,51,119,57,105,109,113,50,97,105,51,48,107,118,118,53,57,57,103]
#guard Punycode.label [236,183,128,225,150,170,236,190,151,207,144,110,49,204,172,235,136,163,53,220,144,215,158,112,235,185,168,113,217,140,110,227,161,180,194,172,113,116,98,230,173,140,109,230,160,161,98] == [120,110,45,45,110,49,53,112,113,110,113,116,98,109,98,45,106,112,97,57,50,52,102,115,108,99,116,118,109,109,120,98,100,122,102,105,119,57,103,57,101,55,104,112,106,112,105,116,53,110,97,49,118,49,56,97,104,56,51,98,103,55,53,100,113,118,106]
#guard Punycode.label [52,242,170,146,185,243,139,171,137,221,157,200,149,113,228,174,166,198,184,230,141,137,99,100,227,181,139,203,181,117,238,145,163,234,149,186,207,179,239,161,164,218,136,213,158,236,170,153,48,229,136,139,225,178,181,241,162,158,134,239,167,185,207,175,226,158,131] == [120,110,45,45,52,113,99,100,117,48,45,113,49,98,54,53,101,101,55,100,114,120,100,104,98,49,55,52,97,120,119,101,55,118,100,98,121,54,106,114,101,116,98,100,110,51,101,53,56,57,98,55,110,122,97,57,98,54,101,102,114,57,112,111,120,52,102,108,55,120,101,118,108,56,100,113,106,105,52,122,54,49,49,103,50,106,106,51,103,57,57,106,111,100]
#guard Punycode.label [225,149,139,200,155,110,232,137,139,215,189,102,229,170,185,219,186,227,138,174,209,159,199,185,108,236,173,147,113,240,150,172,147,114,227,187,176,115,226,183,167,106,202,165,226,165,183,108,241,162,144,171,227,189,178,233,138,131,227,145,145] == [120,110,45,45,110,102,108,113,114,115,106,108,45,57,48,99,49,53,97,115,54,99,109,56,106,122,55,102,105,51,100,117,113,56,101,99,113,50,100,121,48,112,49,105,117,49,57,103,115,111,49,100,103,105,99,53,54,54,118,49,103,111,105,118,109,51,99,106,50,48,112,54,56,49,52,97,56,105,121,48,115]
#guard Punycode.label [52,100,228,154,153,234,144,177,226,182,183,196,133,243,142,163,145,243,134,128,134,199,175,232,128,190,211,180,242,129,128,179,241,140,139,148,231,157,188,230,152,163,56,242,186,145,154,227,155,179,99,243,189,143,166] == [120,110,45,45,52,100,56,99,45,99,116,97,56,49,108,118,121,107,99,57,56,103,57,109,114,111,121,57,97,120,114,50,101,118,114,122,98,121,49,120,97,100,115,53,105,52,55,51,48,110,116,119,48,117,100,101,49,56,117,101,100,55,102,117,97,107,102,53,113,49,114,119,52,104]
#guard Punycode.label [231,189,183,205,145,108,211,137,109,110] == [120,110,45,45,108,109,110,45,111,109,99,53,57,112,50,120,57,52,97]
#guard Punycode.label [101,238,162,175,200,182,229,147,185,195,190,214,150,229,156,153,234,156,144,45,243,185,180,176] == [120,110,45,45,101,45,45,51,107,97,49,54,106,113,54,104,53,55,52,109,52,100,100,100,112,54,115,117,111,53,101,49,98,121,53,53,97]
#guard Punycode.label [214,174,53,120,240,152,181,137,223,171,211,164,224,189,157,243,175,140,169,201,166,194,144,195,152] == [120,110,45,45,53,120,45,112,98,97,50,48,97,113,50,101,109,121,102,108,115,98,98,49,105,102,52,117,49,56,52,49,103,98,115,52,50,118]
#guard Punycode.label [227,172,161,229,163,136,104,216,159,105,53,196,190,196,145,230,168,172,230,151,155,54,209,153,241,166,156,158,54,242,189,150,165,229,145,182,242,136,155,191,239,160,163,103,240,149,143,144,234,158,135,219,153,199,173,196,164,198,159,225,140,153,235,187,188] == [120,110,45,45,104,105,53,54,54,103,45,100,51,97,57,109,110,106,52,57,97,113,121,114,54,115,113,55,102,119,121,99,100,52,55,101,110,51,122,106,101,57,117,100,115,105,113,101,116,50,100,111,98,115,110,113,56,48,97,122,51,120,100,112,121,119,109,99,50,108,113,57,103,52,50,116,107,102,112,54,99,54,102,114,119,103]
#guard Punycode.label [215,150,243,135,169,184,217,187,121,219,173] == [120,110,45,45,121,45,99,105,99,57,48,99,106,111,115,56,50,55,50,107]
#guard Punycode.label [230,150,169,109,205,190] == [120,110,45,45,109,45,50,105,98,53,48,53,54,101]
#guard Punycode.label [240,147,181,129,121,199,162,110,239,165,176,195,147,97,234,135,161,216,181,54,242,155,129,143,242,143,188,186,238,181,142,122,219,183,232,158,155,103,207,154,228,138,186,207,188,194,149,105,244,131,139,148,239,177,184,243,131,143,158,111,221,183] == [120,110,45,45,121,110,97,54,122,103,105,111,45,117,102,97,57,50,100,57,54,103,56,117,105,119,109,97,122,48,120,104,51,99,121,117,99,119,121,51,55,98,108,100,122,106,101,108,117,100,49,105,118,111,112,105,121,98,104,55,110,102,114,53,54,97,117,120,110,55,53,97,121,102,112,48,97,50,48,53,51,104,101,57,53,121,104]
#guard Punycode.label [104,213,163,229,178,134,104,235,160,187,226,162,144,234,130,143,113,222,176,45,50,243,173,166,165,229,156,181,230,177,134,205,161,230,134,141,51,113] == [120,110,45,45,104,104,113,45,50,51,113,45,118,50,101,53,51,55,98,109,52,103,56,116,57,104,103,56,48,102,108,112,111,97,98,116,113,110,51,49,98,121,50,53,110,110,100,56,99,117,110,119,57,50,101]
#guard Punycode.label [216,143] == [120,110,45,45,120,102,98]
#guard Punycode.label [99,225,177,131,208,180,111,121,236,144,135,230,173,176,113,109,117,240,188,134,189,56,117,233,133,145,218,181,231,153,173,222,164,102,199,186,239,179,191,196,162,243,172,183,191,100,228,161,175,220,183,204,156,213,183,196,144] == [120,110,45,45,99,111,121,113,109,117,56,117,102,100,45,116,107,98,56,115,48,55,104,99,118,102,120,53,101,57,112,103,107,56,102,56,115,99,98,122,99,107,121,49,113,104,52,119,106,107,54,52,102,122,50,50,98,111,52,119,105,120,54,56,107,103,116,51,107,104,98,48,49,108,114,109,51,53,118]
#guard Punycode.label [230,131,190,209,186,197,180,194,145,115,215,173,113] == [120,110,45,45,115,113,45,113,98,97,49,50,103,116,52,105,121,116,99,113,118,55,121]
#guard Punycode.label [195,158,115,103,103,243,183,161,146,201,187,243,172,169,180,52,230,144,159,217,180,196,182,198,137,235,169,146,207,172,212,185,238,163,142,210,170,109,118,54,207,137,199,146,224,160,179] == [120,110,45,45,115,103,103,52,109,118,54,45,114,118,97,48,49,102,102,122,98,120,105,53,100,105,50,103,53,110,51,53,103,109,49,99,53,55,104,103,111,106,103,52,54,56,98,50,106,52,108,99,57,51,103,116,99,107,50,52,100,110,121,52,120,97]
#guard Punycode.label [240,173,131,178,238,176,130,219,163,55,119,217,153,112,231,134,161] == [120,110,45,45,55,119,112,45,102,53,101,49,48,101,121,55,51,50,99,119,57,56,103,48,122,52,52,97]
#guard Punycode.label [195,150,221,148,225,134,174,229,162,128,203,166,236,151,131,229,154,138,232,142,131,103,215,191,235,187,168,100] == [120,110,45,45,103,100,45,110,104,97,54,50,115,108,50,102,110,111,99,57,116,52,97,107,52,51,107,98,121,100,99,115,48,108,49,115,113,103,117,103,114,97]
#guard Punycode.label [45,100,242,190,160,169,114,50,211,183,210,147] == [120,110,45,45,45,100,114,50,45,101,106,101,51,49,100,49,50,51,53,49,111]
#guard Punycode.label [230,161,160,97,115,234,156,179,217,131,122,243,154,133,177] == [120,110,45,45,97,115,122,45,119,50,101,54,57,54,54,106,102,49,56,99,52,55,55,56,119]
#guard Punycode.label [236,137,155,201,185,240,151,141,180,51,221,151,197,160,216,139,226,154,178,49,207,158,107,243,149,185,160,210,180] == [120,110,45,45,51,49,107,45,119,122,97,55,49,108,107,57,99,51,122,98,107,48,101,108,50,100,114,54,51,106,50,50,56,116,102,101,121,111,108,116,108,49,121]
#guard Punycode.label [239,148,169,199,135,109,233,140,165,231,188,159] == [120,110,45,45,109,45,121,115,97,57,55,51,55,103,50,122,113,97,114,54,53,105]
#guard Punycode.label [242,170,133,179,194,171,231,156,135,243,128,170,179,205,168,236,178,132,241,184,134,146,233,175,129,238,131,184,122,49,116,215,180,229,134,136,220,144,228,136,150,223,138,198,189,111,194,189,230,183,169] == [120,110,45,45,122,49,116,111,45,102,103,97,54,105,52,52,102,114,119,102,48,117,104,102,53,99,113,117,99,49,50,50,51,97,117,55,114,98,103,98,53,101,54,116,50,97,100,50,54,106,102,105,116,104,51,54,48,99,100,116,119,55,56,97,122,102,115,114,100,99,110,107,122,98]
#guard Punycode.label [101,120,239,176,183,121,114,241,141,161,165,229,128,156,229,148,136] == [120,110,45,45,101,120,121,114,45,116,103,55,102,117,52,120,121,49,48,51,97,121,99,50,50,100]
#guard Punycode.label [195,189,235,154,144,106,220,132,223,168,116,203,179,225,128,143,211,184,228,173,178,242,156,141,146,114,242,189,138,191,196,183,225,132,158,104,204,182,232,130,149,97,228,175,170,57,55,238,131,183] == [120,110,45,45,106,116,114,104,97,57,55,45,117,50,97,57,51,99,102,55,108,102,118,97,117,50,111,116,48,104,104,110,100,114,56,55,98,56,115,100,118,111,51,52,97,53,48,98,107,120,48,55,98,103,118,114,105,115,100,121,103,56,112,53,49,51,98,101,100,112,113,99]
#guard Punycode.label [53,230,174,156,57,219,149,209,190,230,138,149,220,159,221,177,200,131,241,145,133,163,202,129,210,158,49,203,156,225,149,146,231,145,184,118,239,143,170,227,170,187,119,117,226,135,143,227,176,153,227,130,158,229,178,149] == [120,110,45,45,53,57,49,118,119,117,45,113,104,99,50,50,104,112,120,115,48,107,101,107,117,48,117,115,49,97,50,54,97,52,48,48,108,117,48,50,98,109,118,48,99,110,98,121,98,100,112,102,98,117,54,112,102,108,48,97,115,114,53,98,48,117,52,98,102,104,50,49,99,49,51,53,53,111]
#guard Punycode.label [114,196,134,208,176,231,167,142,210,175,232,185,174,241,169,144,181,239,187,181,224,160,150,107,226,185,167,104,239,173,189,198,154,52,206,157,214,156,233,141,147,243,175,147,184,209,145,108,223,182,104,198,189,243,178,157,190] == [120,110,45,45,114,107,104,52,108,104,45,51,48,97,48,48,106,100,106,109,57,110,99,120,98,113,108,113,52,98,55,50,103,99,115,109,110,111,97,102,51,57,52,99,102,119,52,108,108,53,122,99,105,113,117,97,113,53,51,49,99,98,55,112,97,120,57,57,54,56,101,54,99,109,118,108,122,55,115,104,97]
#guard Punycode.label [240,175,169,157,201,142,229,132,163,215,176,218,182,204,165,100,234,152,174,215,157,225,171,188,97,238,132,182,104,195,189,48,202,186,230,139,188,106,205,149,49,232,162,142] == [120,110,45,45,100,97,104,48,106,49,45,100,122,97,54,48,121,54,49,97,111,52,97,107,112,116,52,119,56,103,115,54,104,110,50,54,106,104,99,118,107,116,111,110,99,114,108,51,104,121,118,122,101,115,122,48,107,107,108,57,48,103]
#guard Punycode.label [240,172,169,165,109,106,222,154] == [120,110,45,45,109,106,45,53,112,101,55,54,56,52,51,101]
#guard Punycode.label [114,237,135,183,99,106,224,184,191,224,184,152,228,162,142,112,239,181,161,232,154,160,223,160,114,234,178,143,227,129,144,227,147,135,50,240,145,176,153] == [120,110,45,45,114,99,106,112,114,50,45,122,49,107,48,51,55,104,57,106,97,56,48,50,48,97,105,106,107,48,122,49,100,98,119,50,107,113,56,57,100,122,105,55,101,52,102,57,102,52,101,110,101]
#guard Punycode.label [119,227,142,173,102,110,219,180,104,241,151,149,173,55,242,169,145,170,218,172,231,162,166,218,134,121,214,162,114,232,128,129,200,172,221,184,223,190,55,226,173,134,222,175,235,190,131,201,146,103,240,178,138,171,227,185,171] == [120,110,45,45,119,102,110,104,55,121,114,55,103,45,114,114,100,51,51,98,54,50,53,97,119,50,99,103,112,120,56,97,117,52,100,48,48,97,117,52,98,101,53,48,50,98,122,100,57,97,115,102,122,99,48,121,55,115,115,109,57,97,115,115,54,48,97,109,56,53,51,105,112,117,108,57,100,114,103,109,118,107]
#guard Punycode.label [207,129,220,139,215,129,213,174,231,171,181,200,160,242,148,184,168,54,226,142,182,239,136,148,200,153,220,172,110,120] == [120,110,45,45,54,110,120,45,49,108,98,55,97,51,48,115,50,53,100,55,115,97,122,54,103,117,106,56,52,56,121,119,49,53,108,50,118,48,108,54,105,48,57,115]
#guard Punycode.label [220,132,218,187,223,129,97,238,147,159,113,219,163] == [120,110,45,45,97,113,45,122,53,100,54,110,53,102,57,56,98,105,57,48,52,104]
#guard Punycode.label [239,134,135,105,236,160,158,209,173,220,182,226,147,131,243,131,180,154,111,48,120,205,145,240,186,135,189,56,221,141,230,138,134,119,229,176,187,243,143,163,153,224,171,144,241,138,160,184,202,175,53] == [120,110,45,45,105,111,48,120,56,119,53,45,55,119,100,57,54,108,98,51,101,100,56,107,98,105,109,49,51,98,56,114,53,103,54,52,51,105,111,98,118,97,103,121,56,48,98,53,48,57,101,120,118,118,55,105,48,57,107,53,97,106,121,109,55,118,108,103,120,121,97]
#guard Punycode.label [52,216,163,208,165,211,190,228,129,157,98,200,136,217,172,106,212,134,104,111,228,190,136,199,184,207,167,115] == [120,110,45,45,52,98,106,104,111,115,45,109,102,99,56,106,111,49,113,115,114,97,116,56,101,51,99,116,56,112,108,51,97,54,48,55,52,100,107,122,122,98]
#guard Punycode.label [122,53,244,141,174,175,232,178,134,240,166,184,168,216,131,229,141,138,197,156,231,149,160,231,132,146,112,229,138,151,53,55,116,227,135,181,207,141] == [120,110,45,45,122,53,112,53,55,116,45,99,106,98,56,49,49,99,110,122,102,112,119,55,107,112,57,56,99,107,48,98,50,53,57,111,49,117,109,118,50,53,102,50,111,48,50,103,121,50,53,120,49,97]
#guard Punycode.label [226,178,176,54,210,170,119,241,156,164,179,230,191,190,235,153,131,56,104,101,227,178,136,238,176,188,232,139,157,218,166,239,160,162,231,146,181,225,172,152] == [120,110,45,45,54,119,56,104,101,45,49,104,102,52,55,54,97,109,117,48,100,55,99,55,97,98,101,55,97,107,107,52,105,56,50,108,57,122,56,98,99,110,52,107,121,103,122,103,115,49,111,98,122,119,121,55,55,97]
#guard Punycode.label [235,168,135,235,157,135,119,203,187,209,142,204,155,243,163,146,179,104,228,160,154,235,166,165,57,195,163] == [120,110,45,45,119,104,57,45,111,108,97,49,57,120,114,102,113,54,102,102,120,54,117,110,100,55,105,108,55,101,117,52,97,116,52,56,57,51,49,97]
#guard Punycode.label [209,178,198,141,222,155,232,133,172,241,157,154,138,228,142,145,196,143,233,160,135,205,171,122] == [120,110,45,45,122,45,103,105,97,49,57,97,119,53,100,114,117,98,122,56,105,57,118,49,107,111,111,120,101,102,115,118,98,99,117,120,56,115]
#guard Punycode.label [202,168,45,232,139,148,220,166,121,195,157,209,166,204,147,120,116,54,238,182,131,241,159,131,172,241,159,179,178,227,161,190,229,182,156,228,168,190,195,139,200,183,57,219,190] == [120,110,45,45,45,121,120,116,54,57,45,102,112,97,52,108,119,51,107,99,54,97,122,55,97,104,50,105,51,48,107,121,112,97,112,54,50,50,100,106,109,57,98,102,50,117,100,51,56,117,104,104,118,54,114,117,101,121,50,112,50,48,114,98]
#guard Punycode.label [48,208,136,238,139,173,228,188,149,119,114,102,236,142,162,112,242,187,133,152] == [120,110,45,45,48,119,114,102,112,45,57,111,101,53,48,54,53,107,56,51,115,105,51,51,54,98,53,105,118,52,55,97]
#guard Punycode.label [208,175,113,209,176,120] == [120,110,45,45,113,120,45,51,107,99,53,120]
#guard Punycode.label [204,129,239,144,157,243,190,190,169,226,171,170,200,161,199,159,243,128,152,138,109,225,158,172,237,140,141,50,205,171,196,139,242,131,143,183,195,177,215,153,216,184,229,178,180,108,113,209,164,208,185,209,176,217,147,214,169,57,226,166,185,225,191,153,239,167,160] == [120,110,45,45,109,50,108,113,57,45,112,116,97,53,112,51,56,100,55,113,53,51,101,112,55,97,48,48,101,55,112,111,102,117,49,113,49,118,97,112,52,99,98,111,113,53,51,121,111,103,56,97,49,108,54,98,103,113,102,105,52,53,51,97,53,116,48,118,116,122,109,102,110,108,53,97,53,57,50,53,53,104,111,101,115,120,102,98,105,112,51,103]
#guard Punycode.label [226,130,164,217,157,198,172,103,241,131,187,158,117,56,231,138,176,225,172,154,220,148,234,182,182,217,179,239,187,132,213,187,198,145,209,147,197,153,214,131,228,175,134,240,166,146,144,106,225,132,159,116,199,139,213,179,243,172,182,131,206,182,121,104] == [120,110,45,45,103,117,56,106,116,121,104,45,121,111,98,55,49,99,115,105,109,109,56,54,114,103,55,98,108,57,102,105,100,48,102,114,52,110,112,108,50,53,104,109,122,48,102,48,49,52,98,102,113,122,97,116,108,49,115,51,102,110,104,54,109,119,108,108,111,56,111,55,51,105,49,101,103,109,107,56,100,100,102,56,57,121]
#guard Punycode.label [244,136,183,178,229,161,155,104,221,151,105,233,186,164,108,241,188,181,135] == [120,110,45,45,104,105,108,45,102,122,102,50,49,56,52,104,118,101,50,100,105,120,51,55,107,53,57,57,52,101]
#guard Punycode.label [208,169,232,128,189,232,191,179,122,235,183,171,221,157,97,238,169,170,219,180,220,148,238,149,158,231,150,176,54,221,174,230,152,142,103] == [120,110,45,45,122,97,54,103,45,52,50,100,54,48,52,98,111,103,111,118,51,101,54,54,48,50,104,121,54,57,97,53,112,48,97,53,120,54,98,105,114,52,105,106,120,53,101,116,52,113,97]
#guard Punycode.label [236,154,161,240,190,170,145,230,190,171,207,159,243,176,182,147,211,139,99,238,165,184,201,153,118,107,226,157,169,50,225,173,153,113,239,158,148,230,149,174,98,49,222,190,203,129,224,171,148,198,176,107,202,141,243,152,160,150,239,128,144,237,155,154,236,155,141] == [120,110,45,45,99,118,107,50,113,98,49,107,45,110,105,99,55,57,110,117,113,110,116,51,57,105,111,53,100,50,120,112,103,110,109,54,110,50,101,99,110,51,98,98,106,122,114,111,49,112,98,103,119,52,49,97,105,50,97,103,52,49,121,119,109,118,101,103,113,56,97,56,50,51,98,98,56,57,54,54,97,51,111,115,112,115,112,112,112,104,99]
#guard Punycode.label [121,239,151,151,237,135,158,205,154,55,227,136,152,198,129,243,149,191,179,242,188,159,182,220,172,105,109,224,166,155,98,229,131,151,103,234,138,133,108,240,159,191,144,199,159,204,144,53,203,139,211,152,240,170,191,157] == [120,110,45,45,121,55,105,109,98,103,108,53,45,102,53,98,57,53,103,104,56,101,118,120,97,51,50,97,101,55,109,102,112,107,52,54,106,107,119,51,112,101,120,116,101,103,108,113,111,55,52,120,103,110,52,49,102,104,51,119,52,99,54,103,103,121,113,117,49,55,54,97,116,115,53,53,98]
#guard Punycode.label [52,116,242,172,168,185,241,157,144,157,122,97,243,141,180,177,195,180] == [120,110,45,45,52,116,122,97,45,121,113,97,51,51,53,49,48,117,117,56,99,118,99,109,121,109,122,97]
#guard Punycode.label [98,111,114,217,134,214,168,212,178,107,217,188,119,108,243,145,185,158] == [120,110,45,45,98,111,114,107,119,108,45,114,52,103,55,53,103,118,52,98,115,112,121,52,57,53,53,49,97]
#guard Punycode.label [212,178,228,156,172,111,115,196,166,119,242,161,140,151,239,167,132,237,156,181,241,165,173,145,227,184,181,198,151,238,151,158,100,212,144] == [120,110,45,45,111,115,119,100,45,49,120,97,51,57,100,113,56,113,117,104,108,53,48,56,98,117,122,115,97,49,101,54,55,97,50,48,104,98,55,98,52,99,105,108,122,49,121,99,115,105,116,100]
#guard Punycode.label [242,147,140,157,236,134,173,209,148,226,152,137,119,215,133,239,140,141,117] == [120,110,45,45,119,117,45,57,110,99,49,57,108,55,53,54,102,109,102,49,111,101,105,117,99,120,57,117,57,113]
#guard Punycode.label [229,172,189,241,180,146,156,225,142,142,243,158,130,184,102] == [120,110,45,45,102,45,48,55,104,54,57,57,54,98,48,98,121,49,104,53,99,115,119,99]
#guard Punycode.label [119,204,152,195,176,226,169,150,210,147,237,149,177,242,158,152,191,105,116,116,103,227,184,131,198,144,211,128,120,104,213,178,230,182,134,236,141,176,236,174,183,242,134,138,153] == [120,110,45,45,119,105,116,116,103,120,104,45,119,122,97,56,53,108,51,55,103,102,53,101,117,112,97,119,56,101,108,117,53,116,52,120,116,99,110,52,52,105,50,104,114,109,49,101,53,97,109,118,50,98,115,50,49,53,56,100,111,104,118,118,98]
#guard Punycode.label [244,137,131,129,218,172,228,162,169,221,186,54,236,147,167,242,149,152,162,120,230,178,169,112,103,230,189,173,244,137,176,156,57,117,242,191,183,190,235,186,134,239,183,178,242,139,171,185,241,150,149,164,235,155,190,240,167,176,166,57,117,102] == [120,110,45,45,54,120,112,103,57,117,57,117,102,45,112,53,109,52,54,111,105,48,57,52,97,103,50,119,100,106,100,105,54,108,52,122,109,103,122,97,55,119,119,109,116,49,117,109,117,57,49,100,105,50,56,120,102,103,57,57,52,101,104,109,110,117,97,56,48,57,53,104,113,55,48,49,104,48,108,121,98]
#guard Punycode.label [231,142,175,53,211,139,230,146,135,216,168,201,146,218,177,201,140,243,191,167,168,119,53,231,140,130,202,154,50,228,173,191,235,167,191,243,137,160,150,201,164,235,176,163,204,166,218,133,111,226,133,150,119,57,49,220,173,235,175,169,230,174,131] == [120,110,45,45,53,119,53,50,111,119,57,49,45,108,110,100,51,100,48,108,119,121,52,48,100,103,55,106,117,121,102,48,115,98,102,118,101,52,101,111,57,57,116,107,104,51,104,116,51,56,100,111,101,54,97,121,57,57,97,109,110,100,115,53,55,57,99,106,111,107,97,114,112,98,109,121,48,52,57,56,98,119,104,54,122,101]
#guard Punycode.label [215,139,233,149,157,243,161,147,146,202,149,195,173,113,239,173,172,231,149,145,219,157,228,155,172,122,210,140,229,139,152,244,136,171,161,240,191,145,140,216,154,103,205,159] == [120,110,45,45,113,122,103,45,113,109,97,51,51,115,48,56,97,102,121,100,49,118,100,113,117,97,49,52,100,56,120,54,53,97,113,53,51,97,122,119,55,103,114,48,55,100,110,54,116,112,107,101,118,49,103,113,108,102,51,110,57,98,122,108,99]
#guard Punycode.label [240,186,172,187,116,49,98,196,175,225,162,130,225,147,138,104,231,158,162,194,151,233,141,144,234,131,155,238,170,167,233,156,153,243,139,128,149,55,226,187,137,236,161,187,240,165,157,171,120,220,154,49,200,167,244,135,178,183,112,224,164,169,234,163,158,241,133,187,141] == [120,110,45,45,116,49,98,104,55,120,49,112,45,98,103,97,50,51,109,100,48,101,109,117,120,51,112,103,116,117,57,98,56,119,108,104,49,48,103,57,49,121,110,106,101,117,100,98,98,112,97,111,54,57,98,52,102,57,97,51,108,57,107,117,105,48,103,101,114,51,57,101,120,108,122,119,99,51,121,52,49,97,107,109,106,55,53,97,112,107,118,114,102]
#guard Punycode.label [228,129,148,206,134,121,101,225,160,133,221,141,211,172,232,164,164,226,179,139,213,187] == [120,110,45,45,121,101,45,109,53,98,56,52,108,112,117,119,56,102,56,116,56,98,118,122,56,97,49,122,121,98,53,102,54,107]
#guard Punycode.label [103,55,232,156,176,233,187,146,198,174,208,136,50,219,134,235,178,179,240,186,188,138,56,118] == [120,110,45,45,103,55,50,56,118,45,51,113,98,56,50,51,98,114,119,103,104,50,49,53,97,117,110,118,98,100,121,48,100,114,121,118,52,105]
#guard Punycode.label [197,132,110,229,179,158,108,211,164,106,112,216,173,238,183,147,231,145,185,200,165,52,241,171,156,187,199,181] == [120,110,45,45,110,108,106,112,52,45,118,55,97,56,53,106,54,107,121,52,115,99,113,100,50,56,49,54,97,98,104,55,98,49,120,122,116,100,103,110,51,109]
#guard Punycode.label [237,148,132,243,166,133,133,233,184,177,57,199,158,194,130,227,180,178,114,121,227,156,154,241,166,149,164,53,241,155,149,141,214,169] == [120,110,45,45,57,114,121,53,45,108,97,49,48,115,108,121,107,56,54,52,105,99,113,108,113,111,48,118,56,57,118,101,98,111,122,57,107,117,110,120,110,55,49,49,54,113]
#guard Punycode.label [241,173,164,156,236,191,177,118] == [120,110,45,45,118,45,117,121,48,103,105,48,55,54,48,98]
#guard Punycode.label [98,228,138,145,238,171,153,242,153,168,189,48,239,128,174,228,190,170,228,144,176,219,131,239,132,153,200,157,215,168,204,134,110,207,163] == [120,110,45,45,98,48,110,45,106,109,98,57,55,105,54,122,98,108,122,103,57,50,98,50,118,53,120,118,110,100,109,118,53,98,119,102,51,48,98,98,114,111,97,100,54,99,51,53,53,55,50,106]
#guard Punycode.label [218,151,207,168,213,142,219,158] == [120,110,45,45,54,121,97,48,51,101,102,50,97,103,105]
#guard Punycode.label [109,200,176,220,182,235,189,138,232,172,152,236,162,154,197,151] == [120,110,45,45,109,45,108,109,97,52,54,100,51,57,109,102,120,54,113,118,112,114,99,51,118,110]
#guard Punycode.label [235,150,142,232,168,146,230,152,150,199,168,231,143,180,233,139,172,108,110,122,232,152,140,238,177,159,121,223,160] == [120,110,45,45,108,110,122,121,45,112,113,98,54,56,50,103,112,57,53,111,113,103,120,97,103,98,56,97,100,111,105,106,113,121,119,53,56,103,115,54,56,103]
#guard Punycode.label [195,175,110,117,235,130,180,233,137,146,229,143,178,233,179,190,243,169,187,188,230,159,132,228,169,161,121,242,184,178,163,109,235,153,167,104] == [120,110,45,45,110,117,121,109,104,45,98,116,97,48,51,55,50,107,48,56,112,97,48,121,52,98,115,54,50,102,120,115,121,97,56,111,51,99,101,114,112,116,50,55,55,50,103,113,55,111,113,99]
#guard Punycode.label [198,166,238,185,171,206,177,45,221,173,100,120,53] == [120,110,45,45,45,100,120,53,45,57,103,98,50,53,50,97,105,53,105,106,119,51,51,99]
#guard Punycode.label [50,241,137,168,191,120,243,149,175,152,233,186,134,237,147,188,236,168,182,231,190,128,233,140,163,45,240,172,177,171,243,187,146,174,52,221,140,234,137,161,108,217,183,52] == [120,110,45,45,50,120,45,52,108,52,45,116,122,105,52,54,109,122,52,55,55,99,107,98,111,98,100,103,48,97,116,120,106,107,114,52,107,103,115,53,97,56,100,50,57,109,52,103,101,53,98,121,118,115,54,112,116,101,117,107,99]
#guard Punycode.label [232,188,149,195,162,45,231,140,184,227,156,185,230,161,174,105,106,242,135,172,177,235,139,147,219,186,200,177,216,157,120,205,153,236,179,135,121] == [120,110,45,45,45,105,106,120,121,45,50,113,97,50,54,117,121,53,99,57,116,106,100,108,99,120,119,49,117,56,110,57,101,51,107,51,97,101,115,53,102,119,98,114,102,111,49,120,100,109,56,53,48,56,97]
#guard Punycode.label [105,203,185,51] == [120,110,45,45,105,51,45,107,116,98]
#guard Punycode.label [205,135,241,191,157,138,226,168,189,100,242,147,169,191,243,189,156,144,243,178,174,179,244,139,180,141,226,167,183,120,56,227,163,137,235,144,162,217,173,228,153,143] == [120,110,45,45,100,120,56,45,106,108,99,55,52,49,98,117,115,49,101,55,110,97,102,53,55,103,106,112,122,50,114,51,117,104,49,56,49,110,111,115,102,120,97,121,121,104,57,106,117,109,108,111,97,98,55,104,120]
#guard Punycode.label [204,184,203,185,99,242,177,157,180,99,201,175,234,144,150,240,165,178,148,224,174,179,244,132,153,134,238,133,161,207,175,107,114,194,179,48,242,162,137,190,242,159,163,170,229,153,189,50,116] == [120,110,45,45,99,99,107,114,48,50,116,45,49,108,97,55,48,49,98,109,114,98,49,116,121,50,101,110,121,54,98,116,107,51,118,110,105,49,105,99,55,112,104,120,102,118,53,99,116,54,110,51,112,102,100,122,101,55,50,112,54,98,48,51,109,48,111]
#guard Punycode.label [212,178,204,183,108,53,238,156,169,218,136,50,48,195,150,53,219,128,223,128,99,204,156,110,227,134,183,233,143,129,203,191,240,190,176,137,238,180,146,243,174,181,174,198,159,224,191,177,211,133,213,140,201,169] == [120,110,45,45,108,53,50,48,53,99,110,45,49,116,97,54,50,112,122,49,99,100,53,98,53,106,121,108,112,54,113,109,119,98,106,109,118,50,112,54,50,97,56,50,108,112,122,53,99,115,104,49,108,53,122,115,115,56,52,107,110,52,119,51,97,56,56,48,50,49,98,56,104,110,114,117]
#guard Punycode.label [237,141,183,219,180] == [120,110,45,45,104,109,98,51,50,56,53,104]
#guard Punycode.label [243,189,139,169,118,210,161,195,133,110,214,141,202,134,236,152,160,225,163,169,238,162,141,98,51,238,183,162,101,232,191,137,241,181,188,139,54,196,135,201,142,199,155,48,229,161,158] == [120,110,45,45,118,110,98,51,101,54,48,45,50,112,97,51,49,100,105,48,101,101,117,98,98,116,50,50,116,113,113,100,98,121,57,104,115,103,117,109,120,52,111,104,100,111,119,104,105,121,54,101,99,107,119,97,99,53,57,50,48,102,122,113,105,121,107]
#guard Punycode.label [241,182,144,145,236,188,169,223,157,240,144,156,182,225,147,184,120,239,153,183,223,147,224,165,130,225,128,153,121,119,220,142,238,171,136,214,156,116,194,135,206,186,207,182,233,187,190,205,128] == [120,110,45,45,120,121,119,116,45,101,98,97,54,57,50,98,110,121,97,122,110,109,54,106,121,114,101,51,116,99,110,100,120,52,115,111,55,51,97,108,119,113,98,55,52,51,99,54,100,113,102,49,53,50,100,114,110,122,98,119,56,52,100,101,109,122,51,51,98]

end Fasttld.Tests.Punycode
