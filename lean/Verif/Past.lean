import Verif.Braun
/-
GENERATED by tools/gen_lean.py. Do not edit.
Certificates about the automaton: not part of the model, only used (and checked) by the proofs.
-/
namespace Pycep
/-- grammar symbols that must be on top of the stack in a state, topmost first -/
def pastSyms : Bt (List Nat) :=
  (.n (.n (.n (.n (.n (.n (.n (.n (.n (.n .l [141,4,50,192,141,4,55,4,25] .l) [155,52] .l) [163]
  (.n .l [148,49,157] .l)) [4,17,160] (.n (.n (.n .l [64,5,131,131,49,151,30,56] .l) [131,39,131]
  .l) [61,141,4,31,160] (.n .l [203,55,0,51,131] .l))) [4,14] (.n (.n (.n (.n .l
  [64,131,131,49,149,30,56] .l) [50,156] .l) [52,145,4,17] (.n .l [5,202,5,1] .l)) [141,4,31,160]
  (.n (.n (.n .l [5,5,5,5,5,5,5,5,5,5,63,55,7,47] .l) [50,202] .l) [41,131] (.n .l
  [5,5,5,5,63,55,7,47] .l)))) [28] (.n (.n (.n (.n (.n .l [131,50,203] .l) [63,5,55,7,47] .l)
  [177] (.n .l [150,30,5,56] .l)) [55,4,25] (.n (.n (.n .l [5,5,5,5,5,63,5,131,5,55,7,47] .l)
  [55,30] .l) [36,131] (.n .l [5,202,131,5,1] .l))) [4,25] (.n (.n (.n (.n .l
  [5,5,5,5,63,5,131,55,7,47] .l) [141,67,141,55] .l) [193,53] (.n .l [4,50,141,4,55,4,25] .l))
  [55] (.n (.n .l [63,5,5,55,7,47] .l) [21,10] (.n .l [57,131,49] .l))))) [14] (.n (.n (.n (.n (.n
  (.n .l [5,5,5,63,5,131,55,7,47] .l) [148,52,146,4,19] .l) [168] (.n .l [55,0,51,131] .l))
  [141,4,31] (.n (.n (.n .l [5,5,5,5,5,5,63,131,55,7,47] .l) [131,66,131] .l) [144,195,142] (.n .l
  [131,49,150,30,56] .l))) [25,160] (.n (.n (.n (.n .l [131,63,131,55,33,5,52] .l)
  [52,61,141,4,20,160] .l) [63,55,7,47] (.n .l [63,5,202,1] .l)) [56] (.n (.n (.n .l
  [5,5,5,5,5,5,5,5,5,63,5,131,55,7,47] .l) [33,5,52] .l) [30,56] (.n .l [50,203] .l)))) [5,129]
  (.n (.n (.n (.n (.n .l [131,131,49,149,30,5,56] .l) [62,200,53] .l) [187] (.n .l [197,131,198]
  .l)) [4,32,4,14] (.n (.n (.n .l [5,5,5,5,5,5,5,5,63,5,55,7,47] .l) [50,131] .l) [57,131] (.n .l
  [141,63,192,141,4,55,4,25] .l))) [32,46] (.n (.n (.n (.n .l [5,131,131,49,150,30,5,56] .l)
  [61,51,131] .l) [4] (.n .l [5,63,5,131,55,7,47] .l)) [2] (.n (.n .l [199,156,200] .l) [131,48]
  (.n .l [131,131,49,151,30,56] .l)))))) [129] (.n (.n (.n (.n (.n (.n (.n .l
  [5,5,63,5,131,5,55,7,47] .l) [5,52] .l) [164] (.n .l [134,52,61,141,4,31,160] .l)) [142] (.n (.n
  (.n .l [5,5,5,5,5,63,131,5,55,7,47] .l) [131,56,131] .l) [52,145,4,17,160] (.n .l
  [197,131,50,131,55] .l))) [31,160] (.n (.n (.n (.n .l [64,131,131,49,151,30,56] .l)
  [52,61,141,4,23,160] .l) [56] (.n .l [5,202,131,1] .l)) [61,141,4,23] (.n (.n (.n .l
  [5,5,5,5,5,5,5,5,5,63,131,5,55,7,47] .l) [5,50] .l) [130,55] (.n .l [155,52,2,4,17] .l)))) [47]
  (.n (.n (.n (.n (.n .l [5,131,49,151,30,5,56] .l) [147,50,191,147,53,18] .l) [182] (.n .l
  [49,151,30,56] .l)) [50,147,53,18] (.n (.n (.n .l [5,5,5,5,5,5,63,5,131,55,7,47] .l) [131,198]
  .l) [59,131] (.n .l [63,5,202,131,1] .l))) [2,52,13] (.n (.n (.n (.n .l
  [131,35,63,197,131,50,131,55] .l) [131,36,131] .l) [5] (.n .l [63,5,131,5,55,7,47] .l)) [27] (.n
  (.n .l [5,5,63,55,7,47] .l) [131,1] (.n .l [131,131,49,149,30,56] .l))))) [31] (.n (.n (.n (.n
  (.n (.n .l [152,52,15,2,4,17] .l) [141,4,55,4,25] .l) [173] (.n .l [49,131,61,131] .l)) [2,4,17]
  (.n (.n (.n .l [64,5,131,131,49,149,30,5,56] .l) [30,5,56] .l) [134,52,141,4,31] (.n .l
  [22,34,4,30] .l))) [4,17] (.n (.n (.n (.n .l [5,5,5,63,5,131,5,55,7,47] .l)
  [138,52,146,4,19,160] .l) [24,62,147,53,18] (.n .l [131,67,194,131,52,4,28] .l)) [134,52,4,31]
  (.n (.n (.n .l [5,5,5,5,5,5,5,5,5,5,63,5,131,55,7,47] .l) [192,141,4,55,4,25] .l) [161,10] (.n
  .l [131,49,151,30,5,56] .l)))) [147,18] (.n (.n (.n (.n (.n .l [5,131,131,49,150,30,56] .l)
  [200,193,53] .l) [57] (.n .l [131,50,131] .l)) [2,52,4,16] (.n (.n (.n .l
  [5,5,5,5,5,5,5,5,63,5,5,55,7,47] .l) [5,5,1] .l) [60,131] (.n .l [5,5,63,5,5,55,7,47] .l)))
  [4,23,160] (.n (.n (.n (.n .l [5,131,131,49,149,30,5,56] .l) [131,37,131] .l) [52,141,4,23,160]
  (.n .l [61,131,49,157] .l)) [161] (.n (.n .l [50,199,156] .l) [131,52] (.n .l [63,5,202,131,5,1]
  .l))))))) [128] (.n (.n (.n (.n (.n (.n (.n (.n .l [5,5,5,63,5,5,55,7,47] .l) [152,52] .l) [178]
  (.n .l [2,4,17] .l)) [133,25,160] (.n (.n (.n .l [63,131,55,22,34,4,30] .l) [131,60,131] .l)
  [52,141,4,20,160] (.n .l [64,131,61,56,131] .l))) [23,160] (.n (.n (.n (.n .l
  [64,5,131,49,149,30,56] .l) [49,157] .l) [140,52,4,28] (.n .l [63,5,5,1] .l)) [145,4,17,160] (.n
  (.n (.n .l [5,5,5,5,5,5,5,5,63,5,131,55,7,47] .l) [63,202,1] .l) [58,131] (.n .l
  [5,5,63,5,131,55,7,47] .l)))) [201] (.n (.n (.n (.n (.n .l [131,131,49,151,30,5,56] .l)
  [63,131,55,7,47] .l) [180] (.n .l [49,150,30,56] .l)) [191,147,53,18] (.n (.n (.n .l
  [5,5,5,5,5,5,5,5,63,55,7,47] .l) [198,193,56] .l) [51,131] (.n .l [63,5,131,5,1] .l))) [7,47]
  (.n (.n (.n (.n .l [193,155,52,15,2,4,17] .l) [131,35,131] .l) [156] (.n .l [5,63,5,5,55,7,47]
  .l)) [10] (.n (.n .l [5,131,5,55,7,47] .l) [26,10] (.n .l [56,131,49] .l))))) [160] (.n (.n (.n
  (.n (.n (.n .l [193,155,52,2,4,17] .l) [194,131,52,4,28] .l) [170] (.n .l [131,61,56,131] .l))
  [141,4,20] (.n (.n (.n .l [64,5,131,131,49,151,30,5,56] .l) [63,130,55] .l) [196,141,55] (.n .l
  [131,49,151,30,56] .l))) [4,31] (.n (.n (.n (.n .l [5,5,5,5,63,5,5,55,7,47] .l)
  [52,15,145,4,17,160] .l) [50,191,147,53,18] (.n .l [55,33,5,52] .l)) [52,141,4,31] (.n (.n (.n
  .l [5,5,5,5,5,5,5,5,5,5,63,131,5,55,7,47] .l) [67,194,131,52,4,28] .l) [198,56] (.n .l [131,50]
  .l)))) [132,18] (.n (.n (.n (.n (.n .l [64,131,49,149,30,5,56] .l) [139,200] .l) [189] (.n .l
  [193,197,131] .l)) [53] (.n (.n (.n .l [5,5,5,5,5,5,5,5,63,131,55,7,47] .l) [131,5,1] .l)
  [39,131] (.n .l [35,141,63,141,4,55,4,25] .l))) [29,4,14] (.n (.n (.n (.n .l
  [64,5,131,49,150,30,5,56] .l) [131,59,131] .l) [2] (.n .l [156,50,199,156] .l)) [154] (.n (.n .l
  [193,139,200] .l) [52,61,141,4,20] (.n .l [4,50,4,55,30] .l)))))) [13] (.n (.n (.n (.n (.n (.n
  (.n .l [5,5,5,5,5,63,55,7,47] .l) [138,52,146,4,19] .l) [166] (.n .l [137,52,15,145,4,17,160]
  .l)) [143] (.n (.n (.n .l [5,5,5,5,5,5,63,5,55,7,47] .l) [131,61,131] .l) [52,61,141,4,23] (.n
  .l [49,150,30,5,56] .l))) [17,160] (.n (.n (.n (.n .l [63,4,50,4,55,30] .l)
  [134,52,141,4,31,160] .l) [63,55,4,25] (.n .l [5,50,202] .l)) [195,142] (.n (.n (.n .l
  [5,5,5,5,5,5,5,5,5,5,63,5,55,7,47] .l) [137,52,15,145,4,17] .l) [64,56] (.n .l [52,15,2,4,17]
  .l)))) [129,190] (.n (.n (.n (.n (.n .l [131,131,49,150,30,5,56] .l) [2,24,62,147,53,18] .l)
  [184] (.n .l [34,4,30] .l)) [4,32,4] (.n (.n (.n .l [5,5,5,5,5,5,5,63,131,5,55,7,47] .l)
  [197,131] .l) [37,131] (.n .l [131,55,33,5,52] .l))) [24,147,18] (.n (.n (.n (.n .l
  [64,131,131,49,151,30,5,56] .l) [0,51,131] .l) [17] (.n .l [5,5,5,63,55,7,47] .l)) [11] (.n (.n
  .l [63,5,131,55,7,47] .l) [63,1] (.n .l [64,131,49,149,30,56] .l))))) [17] (.n (.n (.n (.n (.n
  (.n .l [148,52,15,2,4,17] .l) [5,5,55,7,47] .l) [175] (.n .l [131,50,131,55] .l)) [2,4,19] (.n
  (.n (.n .l [5,5,5,5,5,5,63,5,5,55,7,47] .l) [149,30,56] .l) [35,131] (.n .l [193,197,131,198]
  .l))) [4,28] (.n (.n (.n (.n .l [5,5,5,5,5,5,63,55,7,47] .l) [63,196,141,55] .l)
  [32,155,29,4,14] (.n .l [50,192,141,4,55,4,25] .l)) [148,52] (.n (.n .l [50,141,4,55,4,25] .l)
  [4,10] (.n .l [131,49,149,30,5,56] .l)))) [4] (.n (.n (.n (.n (.n .l [64,5,131,49,150,30,56] .l)
  [193,156] .l) [52,141,4,20] (.n .l [5,131,5,1] .l)) [52,4,28,160] (.n (.n (.n .l
  [5,5,5,5,5,5,5,63,5,131,5,55,7,47] .l) [63,131,1] .l) [43,131] (.n .l [5,63,5,131,5,55,7,47]
  .l))) [4,31,160] (.n (.n (.n (.n .l [64,5,131,131,49,150,30,56] .l) [131,57,131] .l)
  [134,52,4,31,160] (.n .l [15,2,4,17] .l)) [158] (.n (.n .l [156,50,156] .l) [52,15,145,4,17] (.n
  .l [131,63,131,55,33,52] .l)))))))) [] (.n (.n (.n (.n (.n (.n (.n (.n (.n .l
  [131,35,141,63,141,4,55,4,25] .l) [148,52] .l) [172] (.n .l [131,49,157] .l)) [4,19,160] (.n (.n
  (.n .l [34,63,4,50,4,55,30] .l) [131,40,131] .l) [61,141,4,20,160] (.n .l [50] .l))) [4,16] (.n
  (.n (.n (.n .l [5,131,131,49,149,30,56] .l) [193,139] .l) [52,146,4,19] (.n .l [63,202,5,1] .l))
  [141,4,20,160] (.n (.n (.n .l [5,5,5,5,5,5,5,5,5,63,131,55,7,47] .l) [5,202,1] .l) [66,131] (.n
  .l [5,5,5,63,131,55,7,47] .l)))) [25] (.n (.n (.n (.n (.n .l [35,63,197,131,50,131,55] .l)
  [5,63,55,7,47] .l) [179] (.n .l [149,30,5,56] .l)) [55,7,47] (.n (.n (.n .l
  [5,5,5,5,5,5,5,63,5,55,7,47] .l) [4,30] .l) [65,131] (.n .l [63,202,131,5,1] .l))) [159,201] (.n
  (.n (.n (.n .l [193,152,52,15,2,4,17] .l) [134,52,61,141,4,31] .l) [62,53] (.n .l
  [131,35,141,63,55,4,25] .l)) [56] (.n (.n .l [63,131,5,55,7,47] .l) [27,10] (.n .l
  [5,131,49,150,30,56] .l))))) [16] (.n (.n (.n (.n (.n (.n .l [193,152,52,2,4,17] .l)
  [152,52,146,4,19] .l) [169] (.n .l [131,61,51,131] .l)) [52,4,31] (.n (.n (.n .l
  [5,5,5,5,5,63,5,131,55,7,47] .l) [131,58,131] .l) [64,56] (.n .l [131,49,149,30,56] .l))) [4,23]
  (.n (.n (.n (.n .l [131,35,141,63,192,141,4,55,4,25] .l) [136,52,141,4,20,160] .l) [131,55,7,47]
  (.n .l [131,5,50] .l)) [141,55] (.n (.n (.n .l [5,5,5,5,5,5,5,5,5,5,63,5,5,55,7,47] .l)
  [55,33,52] .l) [193,56] (.n .l [63,203,55,0,51,131] .l)))) [52,13] (.n (.n (.n (.n (.n .l
  [5,131,49,149,30,5,56] .l) [156,200] .l) [188] (.n .l [193,131,198] .l)) [155,29,4,14] (.n (.n
  (.n .l [5,5,5,5,5,5,5,5,5,63,55,7,47] .l) [63,5,1] .l) [45,131] (.n .l [4,50,192,141,4,55,4,25]
  .l))) [32,4,14] (.n (.n (.n (.n .l [64,131,131,49,150,30,5,56] .l) [131,42,131] .l) [6] (.n .l
  [193,199,156,200] .l)) [3] (.n (.n .l [193,156,200] .l) [131,57] (.n .l [5,131,49,151,30,56]
  .l)))))) [5] (.n (.n (.n (.n (.n (.n (.n .l [5,5,5,5,63,5,55,7,47] .l) [33,52] .l) [165] (.n .l
  [136,52,61,141,4,20,160] .l)) [4] (.n (.n (.n .l [5,5,5,5,63,5,131,5,55,7,47] .l) [131,43,131]
  .l) [52,146,4,19,160] (.n .l [49,151,30,5,56] .l))) [20,160] (.n (.n (.n (.n .l
  [64,5,131,49,151,30,56] .l) [131,52,141,4,23,160] .l) [4,55,4,25] (.n .l [63,5,131,1] .l))
  [52,141,4,23] (.n (.n (.n .l [5,5,5,5,5,5,5,5,63,5,131,5,55,7,47] .l) [136,52,61,141,4,20] .l)
  [131,55] (.n .l [148,52,2,4,17] .l)))) [] (.n (.n (.n (.n (.n .l [64,131,49,150,30,5,56] .l)
  [24,62,191,147,53,18] .l) [183] (.n .l [4,55,30] .l)) [2,24,147,18] (.n (.n (.n .l
  [5,5,5,5,5,5,5,63,5,5,55,7,47] .l) [64,198,56] .l) [38,131] (.n .l [131,5,50,202] .l)))
  [147,53,18] (.n (.n (.n (.n .l [5,131,131,49,151,30,5,56] .l) [131,65,131] .l) [157] (.n .l
  [5,5,63,5,55,7,47] .l)) [21] (.n (.n .l [5,63,131,55,7,47] .l) [202,1] (.n .l
  [5,131,49,149,30,56] .l))))) [20] (.n (.n (.n (.n (.n (.n .l [155,52,15,2,4,17] .l)
  [141,63,55,4,25] .l) [174] (.n .l [48,63,130,55] .l)) [146,4,19] (.n (.n (.n .l
  [131,34,63,4,50,4,55,30] .l) [150,30,56] .l) [52,61,141,4,31] (.n .l [131,34,4,30] .l))) [4,19]
  (.n (.n (.n (.n .l [5,5,5,5,5,63,5,55,7,47] .l) [131,52,61,141,4,23] .l) [147,50,147,53,18] (.n
  .l [63,192,141,4,55,4,25] .l)) [131,52] (.n (.n (.n .l [5,5,5,5,5,5,5,5,5,5,63,5,131,5,55,7,47]
  .l) [63,141,4,55,4,25] .l) [2,10] (.n .l [131,49,150,30,5,56] .l)))) [2,18] (.n (.n (.n (.n (.n
  .l [131,57,131,49] .l) [62,193,53] .l) [61,141,4,20] (.n .l [202,131,5,1] .l)) [141,4,23,160]
  (.n (.n (.n .l [5,5,5,5,5,5,5,5,63,131,5,55,7,47] .l) [202,131,1] .l) [56,131] (.n .l
  [5,5,63,131,5,55,7,47] .l))) [4,28,160] (.n (.n (.n (.n .l [64,5,131,49,149,30,5,56] .l)
  [131,44,131] .l) [140,52,4,28,160] (.n .l [52,2,4,17] .l)) [162] (.n (.n .l [193,199,156] .l)
  [148,52] (.n .l [63,131,55,33,5,52] .l))))))) [190] (.n (.n (.n (.n (.n (.n (.n (.n .l
  [5,5,5,63,131,5,55,7,47] .l) [56,52] .l) [185] (.n .l [131,52,61,141,4,23,160] .l)) [141,4,23]
  (.n (.n (.n .l [5,5,5,5,5,63,5,5,55,7,47] .l) [61,56,131] .l) [15,145,4,17,160] (.n .l
  [131,49,131,61,131] .l))) [28,160] (.n (.n (.n (.n .l [5,131,131,49,151,30,56] .l) [4,17] .l)
  [131,52,4,28] (.n .l [63,202,131,1] .l)) [146,4,19,160] (.n (.n (.n .l
  [5,5,5,5,5,5,5,5,5,63,5,5,55,7,47] .l) [131,50] .l) [48,130] (.n .l [152,52,2,4,17] .l)))) [159]
  (.n (.n (.n (.n (.n .l [64,131,49,151,30,5,56] .l) [5,131,55,7,47] .l) [181] (.n .l
  [49,149,30,56] .l)) [62,147,53,18] (.n (.n (.n .l [5,5,5,5,5,5,5,63,131,55,7,47] .l) [64,193,56]
  .l) [42,131] (.n .l [63,5,202,5,1] .l))) [5,129,190] (.n (.n (.n (.n .l [193,148,52,15,2,4,17]
  .l) [131,54,131] .l) [139] (.n .l [5,63,131,5,55,7,47] .l)) [26] (.n (.n .l [5,63,5,55,7,47] .l)
  [5,1] (.n .l [64,131,49,150,30,56] .l))))) [23] (.n (.n (.n (.n (.n (.n .l [193,148,52,2,4,17]
  .l) [67,131,52,4,28] .l) [171] (.n .l [64,131,56,131] .l)) [145,4,17] (.n (.n (.n .l
  [64,5,131,131,49,150,30,5,56] .l) [50,131,55] .l) [67,141,55] (.n .l [50,4,55,30] .l))) [4,20]
  (.n (.n (.n (.n .l [5,5,5,5,63,131,5,55,7,47] .l) [137,52,145,4,17,160] .l) [62,191,147,53,18]
  (.n .l [131,55,33,52] .l)) [61,141,4,31] (.n (.n (.n .l [5,5,5,5,5,5,5,5,5,63,5,131,5,55,7,47]
  .l) [131,67,131,52,4,28] .l) [131] (.n .l [63,197,131,50,131,55] .l)))) [53,18] (.n (.n (.n (.n
  (.n .l [64,131,131,49,150,30,56] .l) [5,193] .l) [48] (.n .l [50,197,131] .l)) [135,52,4,16] (.n
  (.n (.n .l [5,5,5,5,5,5,5,63,5,131,55,7,47] .l) [202,5,1] .l) [40,131] (.n .l
  [141,4,50,141,4,55,4,25] .l))) [52,4,16] (.n (.n (.n (.n .l [64,131,131,49,149,30,5,56] .l)
  [131,38,131] .l) [61,141,4,23,160] (.n .l [61,148,49,157] .l)) [155] (.n (.n .l [62,200,193,53]
  .l) [136,52,141,4,20] (.n .l [55,22,34,4,30] .l)))))) [18] (.n (.n (.n (.n (.n (.n (.n .l
  [5,5,5,5,63,131,55,7,47] .l) [155,52,146,4,19] .l) [167] (.n .l [141,67,196,141,55] .l)) [55]
  (.n (.n (.n .l [5,5,5,5,5,5,5,63,55,7,47] .l) [131,41,131] .l) [131,52,141,4,23] (.n .l
  [49,149,30,5,56] .l))) [19,160] (.n (.n (.n (.n .l [131,55,22,34,4,30] .l) [52,61,141,4,31,160]
  .l) [5,55,7,47] (.n .l [131,50,202] .l)) [144,142] (.n (.n (.n .l
  [5,5,5,5,5,5,5,5,5,5,63,131,55,7,47] .l) [5,56,52] .l) [5,56] (.n .l [203,131,55,0,51,131]
  .l)))) [5,190] (.n (.n (.n (.n (.n .l [5,131,49,150,30,5,56] .l) [4,32,155,29,4,14] .l) [186]
  (.n .l [64,198,193,56] .l)) [4,32,46] (.n (.n (.n .l [5,5,5,5,5,5,63,5,131,5,55,7,47] .l)
  [193,131] .l) [44,131] (.n .l [63,131,55,33,52] .l))) [32,4] (.n (.n (.n (.n .l
  [64,5,131,49,151,30,5,56] .l) [131,51,131] .l) [153] (.n .l [5,5,63,131,55,7,47] .l)) [4] (.n
  (.n .l [2,24,62,191,147,53,18] .l) [50] (.n .l [64,131,49,151,30,56] .l))))) [19] (.n (.n (.n
  (.n (.n (.n .l [63,203,131,55,0,51,131] .l) [131,5,55,7,47] .l) [176] (.n .l [151,30,5,56] .l))
  [52,4,28] (.n (.n (.n .l [5,5,5,5,5,5,63,131,5,55,7,47] .l) [151,30,56] .l) [54,131] (.n .l
  [131,50,197,131] .l))) [133,25] (.n (.n (.n (.n .l [5,5,5,5,5,63,131,55,7,47] .l)
  [67,196,141,55] .l) [200,53] (.n .l [141,63,141,4,55,4,25] .l)) [130] (.n (.n .l
  [35,141,63,55,4,25] .l) [11,10] (.n .l [131,131,49,150,30,56] .l)))) [46] (.n (.n (.n (.n (.n .l
  [131,56,131,49] .l) [199,156] .l) [15,145,4,17] (.n .l [63,131,5,1] .l)) [52,4,31,160] (.n (.n
  (.n .l [5,5,5,5,5,5,5,5,5,63,5,55,7,47] .l) [5,131,1] .l) [61,131] (.n .l [5,5,5,63,5,55,7,47]
  .l))) [4,20,160] (.n (.n (.n (.n .l [64,5,131,131,49,149,30,56] .l) [131,45,131] .l)
  [52,141,4,31,160] (.n .l [131,55,0,51,131] .l)) [1] (.n (.n .l [17,50] .l) [137,52,145,4,17] (.n
  .l [35,141,63,192,141,4,55,4,25] .l)))))))))
/-- sets of states (bit masks) that can be 1, 2, ... entries below a state -/
def pastMasks : Bt (List Nat) :=
  (.n (.n (.n (.n (.n (.n (.n (.n (.n (.n .l
  [0x10000000000000000000000000000000000000000000000000000000000000000000000000000000000000000000000000000000000000000000000,0x200000000000000000000000000000000000000000000000000000000000000000000000000000000000000000000000000000000000,0x8000000000000000000000000000000000000000000000000000000000000000000000000000000000000000000,0x8000000000000000000000000000000000000000000000000000000000000000000,0x100000000000000000000000000000000000000000,0x80000000000000000000,0x800000000000,0x8000010000,0x205]
  .l)
  [0x200000000002000000000000008000000008000000000000000000000000000000000000000,0x4000000004000000000000002000004000000000000000000]
  .l)
  [0x100000000000100005402b880024003f108000220042e08800000430880820404008000ca0000040002440303fffff022480000482c00000040018210600141000000000000000000]
  (.n .l
  [0x2000000000000000000000000000000000000000000000000000000000000000000000000,0x1000000000000000000000000000000000000000000000,0x800000000000000000000008800000000000000000000000000c0000000000000000000020000000000000000000000]
  .l)) [0x2000000000,0x200,0x5] (.n (.n (.n .l
  [0x40000000000000000000000000000000000000000000000000000000000000000000000000000000000000000000000000000000000000000000000000000000000000000,0x800000000000000000000000000000000000000000000000000000000000000000000000000000000000000000000000000000000000000000000000000000,0x2000000000000000000000000000000000000000000000000000000000000000000000000000000000000000000000000000000000000000000,0x80000000000000000000000000000000000000000000000000000000000000000000000000000000000000000000000000000,0x400000000000000000000000000000000000000000000000000000000000000000000000000000000000,0x8000000000000000000000000000000000000000000000000000000000,0x40000000000000000000000000000000000010000000000000000000000000000,0x200000000010000000000000000000000000000000000002c200000000220000000000101a40000001a000000000000200400001000000000000000000]
  .l)
  [0x2000000000000000000000000000000000000000000000000000000,0x1000000801c050a2800120887a000030538440010d400800230500000404020801fbff5e1010000040000988041000000040000001040000000000001000000000000000000000000000,0x100000000000100005402b880024003f108000220042e08800000430880820404008000ca0000040002440303fffff022480000482c00000040018210600141000000000000000000]
  .l) [0x800000000000000000000000,0x2000000000000000,0x800000000,0x200,0x5] (.n .l
  [0x80000000000000000000000000000000000000000000000000000000000000000000000000000000000000000000000000,0x200000000000000000000000000000000000000000000000000000000000000000000000000000,0x20000000000000000000000000000000000000000000000000000,0x1000000801c050a2800120887a000030538440010d400800230500000404020801fbff5e1010000040000988041000000040000001040000000000001000000000000000000000000000,0x100000000000100005402b880024003f108000220042e08800000430880820404008000ca0000040002440303fffff022480000482c00000040018210600141000000000000000000]
  .l))) [0x80,0x5] (.n (.n (.n (.n .l
  [0x80000000000000000000000000000000000000000000000000000000000000000000000000000000000000000000000000000000000000000000000000000,0x1000000000000000000000000000000000000000000000000000000000000000000000000000000000000000000000000000000000000000000,0x40000000000000000000000000000000000000000000000000000000000000000000000000000000000000000000000000000,0x200000000000000000000000000000000000000000000000000000000000000000000000000000000000,0x8000000000000000000000000000000000000000000000000000000000,0x40000000000000000000000000000000000010000000000000000000000000000,0x200000000010000000000000000000000000000000000002c200000000220000000000101a40000001a000000000000200400001000000000000000000]
  .l)
  [0x10000000000000000000000000200000000000000000000000000000000000000000000,0x800000000000000000000000000c0000000000000000000020000000000000000000000]
  .l) [0x4000000000000000000,0x80000000000,0x2000,0x5] (.n .l
  [0x400000000000000000000000000000000000000000000000000000000000000000000000000000000000000,0x4000000000000000000000000000000000000000000000000000000000000,0x40000000000000000000000000000000,0x100000000000100005402b880024003f108000220042e08800000430880820404008000ca0000040002440303fffff022480000482c00000040038210600141000000000000000000]
  .l)) [0x2000000000000000,0x800000000,0x200,0x5] (.n (.n (.n .l
  [0x1000000000000000000000000000000000000000000000000000000000000000000000000000000000000000000000000000000000000000000000000000000000000000000000000000000,0x20000000000000000000000000000000000000000000000000000000000000000000000000000000000000000000000000000000000000000000000000000000000000000000000000000,0x40000000000000000000000000000000000000000000000000000000000000000000000000000000000000000000000000000000000000000000000000000000000000000000000000,0x20000000000000000000000000000000000000000000000000000000000000000000000000000000000000000000000000000000000000000000000000000000000000000000,0x2000000000000000000000000000000000000000000000000000000000000000000000000000000000000000000000000000000000000000000000000000000000,0x800000000000000000000000000000000000000000000000000000000000000000000000000000000000000000000000000000000000000000000000,0x20000000000000000000000000000000000000000000000000000000000000000000000000000000000000000000000000000000000000,0x800000000000000000000000000000000000000000000000000000000000000000000000000000000000000000000,0x100000000000000000000000000000000000000000000000000000000000000000000,0x800000000000000000000000000000000000000000,0x100000000000000000000,0x2000000000000,0x80000,0x20005]
  .l)
  [0x10000000000000001400000000000000000000000010000000000000000000000000000000000000000000000000000000000000,0x20000000000000000000000000c000000000000000000000000000040000000000000000000000000000000]
  .l)
  [0x1000000801c050a2800120887a000030538440010d400800230500000404020801fbff5e1010000040000988041000000040000001040000000000001000000000000000000000000000,0x100000000000100005402b880024003f108000220042e08800000430880820404008000ca0000040002440303fffff022480000482c00000040018210600141000000000000000000]
  (.n .l
  [0x20000000000000000000000000000000000000000000000000000000000000000000000000000000000000000000000000000000000000,0x800000000000000000000000000000000000000000000000000000000000000000000000000000000000000000000,0x100000000000000000000000000000000000000000000000000000000000000000000,0x800000000000000000000000000000000000000000,0x100000000000000000000,0x2000000000000,0x80000,0x20005]
  .l)))) [0x5] (.n (.n (.n (.n (.n .l
  [0x80000000000000000000000000000000000000000000000000000000000000000000000000000000000000000000000000000000000000000000000000,0x40000000008000000000000000000000000000000000000000000000000000000000000000000000000000000000000000000000000000000000000000,0x4000000000000080000000000000000000000000000000000000000000000000000000000000000000000000000000000000000000000000]
  .l)
  [0x400000000000000000000000000000000000000000,0x100000000000000000000,0x2000000000000,0x80000,0x20005]
  .l)
  [0x100000000000100005402b880024003f108000220042e08800000430880820404008000ca0000040002440303fffff022480000482c00000040018210600141000000000000000000]
  (.n .l
  [0x80000000000000000000000000000000000000000000000000000000000000000000000000000000000,0x400000000000000000000000000000004000000000000000000000000000000000000000000000000000000000,0x40000000000000000000000000000000000010000000000000000000000000000,0x200000000010000000000000000000000000000000000002c200000000220000000000101a40000001a000000000000200400001000000000000000000]
  .l)) [0x800000000000,0x8000010000,0x205] (.n (.n (.n .l
  [0x10000000000000000000000000000000000000000000000000000000000000000000000000000000000000000000000000000000000000000000000000000000000000000000000000,0x8000000000000000000000000000000000000000000000000000000000000000000000000000000000000000000000000000000000000000000000000000000000000000000,0x800000000000000000000000000000000000000000000000000000000000000000000000000000000000000000000000000000000000000000000000000000000,0x200000000000000000000000000000000000000000000000000000000000000000000000000000000000000000000000000000000000000000000000,0x8000000000000000000000000000000000000000000000000000000000000000000000000000000000000000000000000000000000000,0x200000000000000000000000000000000000000000000000000000000000000000000000000000000000000000000,0x40000000000000000000000000000000000000000000000000000000000000000000,0x400000000000000000000000000000000000000000,0x100000000000000000000,0x2000000000000,0x80000,0x20005]
  .l)
  [0x80000000000000000000000008000000000000000000000000000000000000000000000000000000000,0x400000000000000000000000040000004000000000000000000000000000010000000000000000000000000000]
  .l)
  [0x1000000801c050a2800120887a000030538440010d400800230500000404020801fbff5e1010000040000988041000000040000001040000000000001000000000000000000000000000,0x100000000000100005402b880024003f108000220042e08800000430880820404008000ca0000040002440303fffff022480000482c00000040018210600141000000000000000000]
  (.n .l
  [0x10000000000000000000000000000000000000000000000000000000000000000000000000000000000000000000000000000000,0x200000000000000000000000000000000000000000000000000000000000000000000000000000000000000,0x4000000000000000000000000000000000000000000000000000000000000,0x40000000000000000000000000000000,0x100000000000100005402b880024003f108000220042e08800000430880820404008000ca0000040002440303fffff022480000482c00000040038210600141000000000000000000]
  .l))) [0x8000010000,0x205] (.n (.n (.n (.n .l
  [0x8000000000000000000000000000000000000000000000000000000000000000000000000000000000000000000000000000000000000000000000000000000000,0x2000000000000000000000000000000000000000000000000000000000000000000000000000000000000000000000000000000000000000000000000,0x80000000000000000000000000000000000000000000000000000000000000000000000000000000000000000000000000000000000000,0x2000000000000000000000000000000000000000000000000000000000000000000000000000000000000000000000,0x400000000000000000000000000000000000000000000000000000000000000000000,0x1000000000000000000000000000000000000000000,0x100000000000000000000,0x2000000000000,0x80000,0x20005]
  .l)
  [0x400000000000000000000000000000000000000000000000000,0x100000000000000000000000000,0x400000000000000000,0x10000000000900000000000000010000000000000004000000000000000000000000400000000300000000000000000000000406800070000000000]
  .l)
  [0x20000000000000000000000,0x100000000000100005402b8a0024003f118000220042e08800000430880820404008002ca0000040022440303fffff03a48000049ac00000040018210600141000200000000000000]
  (.n .l
  [0x20000000000000000000000000000000000000000000000000000000000000000000000000000000000000000000,0x8000000000000000000000000000000000000000000000000000000000000000000,0x100000000000000000000000000000000000000000,0x80000000000000000000,0x800000000000,0x8000010000,0x205]
  .l))
  [0x100000000000100005402b880024003f108000220042e08800000430880820404008000ca0000040002440303fffff022480000482c00000040018210600141000000000000000000]
  (.n (.n .l
  [0x20000000000000000000000000000000000000000000000000000000000000000000,0x400000000000000000000000000000000000000000,0x100000000000000000000,0x2000000000000,0x80000,0x20005]
  .l)
  [0x20000000000000000000000000000,0x100000000000100005402b880024003f108000220042e08800000430880820404008000ca0000040002440303fffff022480000482c00000040018210600141000000000000000000]
  (.n .l
  [0x3800000003800000000000000000000000000000000000000000000000000000000000000000000000000000000000000000000000000000000000000000,0x7000000000000e0000000000000000000000000000000000000000000000000000000000000000000000000000000000000000000000000000,0x1c000000000000000700000000000000000000000000000000000000000000000000000000000000000000000000000000000]
  .l))))) [0x5] (.n (.n (.n (.n (.n (.n .l
  [0x2000000000000000000000000000000000000000000000000000000000000000000000000000000000000000000000000000000000000000000000000,0x80000000000000000000000000000000000000000000000000000000000000000000000000000000000000000000000000000000000000,0x2000000000000000000000000000000000000000000000000000000000000000000000000000000000000000000000,0x400000000000000000000000000000000000000000000000000000000000000000000,0x1000000000000000000000000000000000000000000,0x100000000000000000000,0x2000000000000,0x80000,0x20005]
  .l)
  [0x10000000010000000000000000000000000000000000000000,0x4000010000000000000000000,0x10000100000000000,0x4000004000,0x205]
  .l)
  [0x100000000000100005402b880024003f108000220042e08800000430880820404008000ca0000040002440303fffff022480000482c00000040018210600141000000000000000000]
  (.n .l
  [0x200000000000000000000000000000000000000000000000000000000000000000000000000000,0x20000000000000000000000000000000000000000000000000000,0x1000000801c050a2800120887a000030538440010d400800230500000404020801fbff5e1010000040000988041000000040000001040000000000001000000000000000000000000000,0x100000000000100005402b880024003f108000220042e08800000430880820404008000ca0000040002440303fffff022480000482c00000040018210600141000000000000000000]
  .l)) [0x20000000000,0x800,0x5] (.n (.n (.n .l
  [0x40000000000000000000000000000000000000000000000000000000000000000000000000000000000000000000000000000000000000000000000000000000000000000000,0x4000000000000000000000000000000000000000000000000000000000000000000000000000000000000000000000000000000000000000000000000000000000,0x1000000000000000000000000000000000000000000000000000000000000000000000000000000000000000000000000000000000000000000000000,0x40000000000000000000000000000000000000000000000000000000000000000000000000000000000000000000000000000000000000,0x1000000000000000000000000000000000000000000000000000000000000000000000000000000000000000000000,0x200000000000000000000000000000000000000000000000000000000000000000000,0x1000000000000000000000000000000000000000000,0x100000000000000000000,0x2000000000000,0x80000,0x20005]
  .l)
  [0x100000000000000000000000000000000000000000000000000000000,0x1000000801c050a2800120887a000030538440010d400800230500000404020801fbff5e1010000040000988041000000040000001040000000000001000000000000000000000000000,0x100000000000100005402b880024003f108000220042e08800000430880820404008000ca0000040002440303fffff022480000482c00000040018210600141000000000000000000]
  .l)
  [0x20000000000000000000000000,0x80000000000000000,0x10000000000900000000000000010000000000000004000000000000000000000000400000000300000000000000000000000406800070000000000]
  (.n .l
  [0x20000000000000000000000000000000000000000000000000000000000000000000000000000000000000000000000000000,0x100000000000000000000000000000000000000000000000000000000000000000000000000000000000,0x8000000000000000000000000000000000000000000000000000000000,0x40000000000000000000000000000000000010000000000000000000000000000,0x200000000010000000000000000000000000000000000002c200000000220000000000101a40000001a000000000000200400001000000000000000000]
  .l))) [0x200,0x5] (.n (.n (.n (.n .l
  [0x10000000000000000000000000000000000000000000000000000000000000000000000000000000000000000000000000000000000000000000000000000000,0x2000000000000000000000000000000000000000000000000000000000000000000000000000000000000000000000000000000000000000000000,0x20000000000000000000000000000000000000000000000000000000000000000000000000000000000000000000000000000000000,0x800000000000000000000000000000000000000000000000000000000000000000000000000000000000000000,0x80000000000000000000000000000000000000000000000000000000000000000,0x20000000001000000000000000000000000000000000000200000000002000000000000018000000018000000000000000000000000000000000000000,0x2000000000000002000000000000000000000000000000000000000000000004000000004000000000000006000014000000000000000000]
  .l)
  [0x1000000000000000000000000000000000000000000000000,0x1000000000000000000000000,0x4000000000000000,0x1000000000,0x200,0x5]
  .l) [0x100000000000000000000,0x2000000000000,0x80000,0x20005] (.n .l
  [0x10000000000000000000000000000000000000000000000000000000000000000000000000000000000000000,0x10000000000000000000000000000000000000000000000000000000000000,0x40000000000000000000000000000000,0x100000000000100005402b880024003f108000220042e08800000430880820404008000ca0000040002440303fffff022480000482c00000040038210600141000000000000000000]
  .l)) [0x20000000080000000000000000] (.n (.n (.n .l
  [0x200000000000000000000000000000000000000000000000000000000000000000000000000000000000000000000000000000000000000000000000000000000000000000000000000000000,0x4000000000000000000000000000000000000000000000000000000000000000000000000000000000000000000000000000000000000000000000000000000000000000000000000000000,0x80000000000000000000000000000000000000000000000000000000000000000000000000000000000000000000000000000000000000000000000000000000000000000000000000000,0x100000000000000000000000000000000000000000000000000000000000000000000000000000000000000000000000000000000000000000000000000000000000000000000000000,0x80000000000000000000000000000000000000000000000000000000000000000000000000000000000000000000000000000000000000000000000000000000000000000000,0x8000000000000000000000000000000000000000000000000000000000000000000000000000000000000000000000000000000000000000000000000000000000,0x2000000000000000000000000000000000000000000000000000000000000000000000000000000000000000000000000000000000000000000000000,0x80000000000000000000000000000000000000000000000000000000000000000000000000000000000000000000000000000000000000,0x2000000000000000000000000000000000000000000000000000000000000000000000000000000000000000000000,0x400000000000000000000000000000000000000000000000000000000000000000000,0x1000000000000000000000000000000000000000000,0x100000000000000000000,0x2000000000000,0x80000,0x20005]
  .l)
  [0x80000000000000000000000000000000000000000000000000000000000000000,0x20000000001000000000000000000000000000000000000200000000002000000000000018000000018000000000000000000000000000000000000000,0x2000000000000002000000000000000000000000000000000000000000000004000000004000000000000006000014000000000000000000]
  .l)
  [0x40000000000000000000000000000000000010000000000000000000000000000,0x200000000010000000000000000000000000000000000002c200000000220000000000101a40000001a000000000000200400001000000000000000000]
  (.n .l
  [0x40000000008000000000000000000000000000000000000000000000000000000000000000000000000000000000000000000000000000000000000000,0x4000000000000080000000000000000000000000000000000000000000000000000000000000000000000000000000000000000000000000]
  .l)))) [0x8,0x1] (.n (.n (.n (.n (.n .l
  [0x2000000000000000000000000000000000000000000000000000000000000000000000000000000000000000000000000000000000000000000000000000,0x400000000000000000000000000000000000000000000000000000000000000000000000000000000000000000000000000000000000000000,0x10000000000000000000000000000000000000000000000000000000000000000000000000000000000000000000000000000,0x80000000000000000000000000000000000000000000000000000000000000000000000000000000000,0x400000000000000000000000000000004000000000000000000000000000000000000000000000000000000000,0x40000000000000000000000000000000000010000000000000000000000000000,0x200000000010000000000000000000000000000000000002c200000000220000000000101a40000001a000000000000200400001000000000000000000]
  .l)
  [0x40000000000000000000000000000000000000000000,0x20000000000000000000000,0x100000000000100005402b8a0024003f118000220042e08800000430880820404008002ca0000040022440303fffff03a48000049ac00000040018210600141000200000000000000]
  .l)
  [0x100000000000100005402b880024003f108000220042e08800000430880820404008000ca0000040002440303fffff022480000482c00000040018210600141000000000000000000]
  (.n .l
  [0x8000000000000000000000000000000000000000000000000000000000000000000000000000000000000,0x2000000000000000000000000020000000000000000000000000000000000000000000000000000000000,0x20000000000000000000000000000000000000000000000000000000000000000010000000000000000080000000000010000000000000000000000000000]
  .l)) [0x100000000000000,0x80000000,0x80,0x5] (.n (.n (.n .l
  [0x10000000000000000000000000000000000000000000000000000000000000000000000000000000000000000000000000000000000000000000000000000000000000000000000000000,0x20000000000000000000000000000000000000000000000000000000000000000000000000000000000000000000000000000000000000000000000000000000000000000000000000,0x10000000000000000000000000000000000000000000000000000000000000000000000000000000000000000000000000000000000000000000000000000000000000000000,0x1000000000000000000000000000000000000000000000000000000000000000000000000000000000000000000000000000000000000000000000000000000000,0x400000000000000000000000000000000000000000000000000000000000000000000000000000000000000000000000000000000000000000000000,0x10000000000000000000000000000000000000000000000000000000000000000000000000000000000000000000000000000000000000,0x400000000000000000000000000000000000000000000000000000000000000000000000000000000000000000000,0x80000000000000000000000000000000000000000000000000000000000000000000,0x400000000000000000000000000000000000000000,0x100000000000000000000,0x2000000000000,0x80000,0x20005]
  .l)
  [0x4000000000000000000000000000000000002000000000000008000000000000000000000000040000000000000000000000000000000000000000000000000000000000,0x20000000000000000000000000000000000000002040000000000000000000000030000000000000000080000000000010000000000000000000000000000]
  .l)
  [0x1000000801c050a28001208842000030500440010d400800230500000404020801fbff5e1010000040000988041000000040000001040000000000001000000000000000000000000000,0x100000000000100005402b8800240038108000220042008800000430880820404008000ca0000040002440303fffff022480000482c00000040018210600141000000000000000000]
  (.n .l
  [0x100000000000000000000000000000000000000000000000000000000000000000000000000000000000000000000000000000000000,0x8000000000000000000000000000000000000000000000000000000000000000000000000000000000000000000,0x8000000000000000000000000000000000000000000000000000000000000000000,0x100000000000000000000000000000000000000000,0x80000000000000000000,0x800000000000,0x8000010000,0x205]
  .l))) [0x40000000,0x2000000000000000000000800000000000004000040] (.n (.n (.n (.n .l
  [0x20000000000000000000000000000000000000000000000000000000000000000000000000000000000000000000000000000000000000000000000000000000000000,0x1000000000000000000000000000000000000000000000000000000000000000000000000000000000000000000000000000000000000000000000000000,0x200000000000000000000000000000000000000000000000000000000000000000000000000000000000000000000000000000000000000000,0x8000000000000000000000000000000000000000000000000000000000000000000000000000000000000000000000000000,0x80000000000000000000000000000000000000000000000000000000000000000000000000000000000,0x400000000000000000000000000000004000000000000000000000000000000000000000000000000000000000,0x40000000000000000000000000000000000010000000000000000000000000000,0x200000000010000000000000000000000000000000000002c200000000220000000000101a40000001a000000000000200400001000000000000000000]
  .l)
  [0x20000000000000000000000000000000000000000000000000000,0x1000000801c050a2800120887a000030538440010d400800230500000404020801fbff5e1010000040000988041000000040000001040000000000001000000000000000000000000000,0x100000000000100005402b880024003f108000220042e08800000430880820404008000ca0000040002440303fffff022480000482c00000040018210600141000000000000000000]
  .l)
  [0x800000000000000000000008800000000000000000000000000c0000000000000000000020000000000000000000000]
  (.n .l
  [0x2000000000000000000000000000000000000000000000000000000000000000000000000000000000000000000000,0x400000000000000000000000000000000000000000000000000000000000000000000,0x1000000000000000000000000000000000000000000,0x100000000000000000000,0x2000000000000,0x80000,0x20005]
  .l))
  [0x100000000000100005402b880024003f108000220042e08800000430880820404008000ca0000040002440303fffff022480000482c00000040018210600141000000000000000000]
  (.n (.n .l
  [0x10000000000000000000000000000000000000000000000000000000000000000000000,0x80000000000000000000000000040000000000000000000000000000000000000000000,0x80000000000000000000020000000000000000000000]
  .l)
  [0x400000000000000000000000000000000000000,0x100000000000100005402b880024003f108000220042e08800000430880820404008000ca0000040002440303fffff022480000482c00000040018210600141000000000000000000]
  (.n .l
  [0x2000000000000000000000000000000000000000000000000000000000000000000000000000000000000000000000000000000000000000000,0x80000000000000000000000000000000000000000000000000000000000000000000000000000000000000000000000000000,0x400000000000000000000000000000000000000000000000000000000000000000000000000000000000,0x8000000000000000000000000000000000000000000000000000000000,0x40000000000000000000000000000000000010000000000000000000000000000,0x200000000010000000000000000000000000000000000002c200000000220000000000101a40000001a000000000000200400001000000000000000000]
  .l)))))) [0x1] (.n (.n (.n (.n (.n (.n (.n .l
  [0x200000000000000000000000000000000000000000000000000000000000000000000000000000000000000000000000000000000000000000000000,0x8000000000000000000000000000000000000000000000000000000000000000000000000000000000000000000000000000000000000,0x200000000000000000000000000000000000000000000000000000000000000000000000000000000000000000000,0x40000000000000000000000000000000000000000000000000000000000000000000,0x400000000000000000000000000000000000000000,0x100000000000000000000,0x2000000000000,0x80000,0x20005]
  .l)
  [0x20000000001000000000000000000000000000000000000200000000002000000000000018000000018000000000000000000000000000000000000000,0x2000000000000002000000000000000000000000000000000000000000000004000000004000000000000006000014000000000000000000]
  .l)
  [0x100000000000100005402b880024003f108000220042e08800000430880820404008000ca0000040002440303fffff022480000482c00000040018210600141000000000000000000]
  (.n .l
  [0x40000000000000000000000000000000000000000000000000000000000000000000000000,0x800000000000000000000000000000000000000000000000,0x800000000000000000000000,0x2000000000000000,0x800000000,0x200,0x5]
  .l))
  [0x10000000000900000000000000010000000000000004000000000000000000000000400000000300000000000000000000000406800070000000000]
  (.n (.n (.n .l
  [0x4000000000000000000000000000000000000000000000000000000000000000000000000000000000000000000000000000000000000000000000000000000000000000000,0x400000000000000000000000000000000000000000000000000000000000000000000000000000000000000000000000000000000000000000000000000000000,0x100000000000000000000000000000000000000000000000000000000000000000000000000000000000000000000000000000000000000000000000,0x4000000000000000000000000000000000000000000000000000000000000000000000000000000000000000000000000000000000000,0x100000000000000000000000000000000000000000000000000000000000000000000000000000000000000000000,0x40000000000000000000000000000000000000000000000000000000000000000000,0x400000000000000000000000000000000000000000,0x100000000000000000000,0x2000000000000,0x80000,0x20005]
  .l)
  [0x10000000000000000000000000000000000000000000000000000000,0x1000000801c050a28001208842000030500440010d400800230500000404020801fbff5e1010000040000988041000000040000001040000000000001000000000000000000000000000,0x100000000000100005402b8800240038108000220042008800000430880820404008000ca0000040002440303fffff022480000482c00000040018210600141000000000000000000]
  .l) [0x2000000000000000000000000,0x8000000000000000,0x2000000000,0x200,0x5] (.n .l
  [0x2000000000000000000000000000000000000000000000000000000000000000000000000000000000000000000000000000,0x40000000000000000000000000000000000000000000000000000000000000000000000000000000000,0x1000000000000000000000000000000000000000000000000000000000,0x8000000000000000000000000000,0x100000000000100005402b880024003f108000220042e08800000430880820404008000ca0000040002440303fffff022480000482c00000040018210600141000000000000000000]
  .l))) [0x200,0x5] (.n (.n (.n (.n .l
  [0x800000000000000000000000000000000000000000000000000000000000000000000000000000000000000000000000000000000000000000000000000000,0x2000000000000000000000000000000000000000000000000000000000000000000000000000000000000000000000000000000000000000000,0x80000000000000000000000000000000000000000000000000000000000000000000000000000000000000000000000000000,0x400000000000000000000000000000000000000000000000000000000000000000000000000000000000,0x8000000000000000000000000000000000000000000000000000000000,0x40000000000000000000000000000000000010000000000000000000000000000,0x200000000010000000000000000000000000000000000002c200000000220000000000101a40000001a000000000000200400001000000000000000000]
  .l)
  [0x40000000000000000000000000000000000000000000000,0x100000000000000000000000,0x800000000000000,0x200000000,0x200,0x5]
  .l)
  [0x10000000000010000540280800240007108000220042e08800000430880820404008000080000040000440303ffffe020080000480c00000040018010200140000000000000000000]
  (.n .l
  [0x1000000000000000000000000000000000000000000000000000000000000000000000000000000000000000,0x8000000000000000000000000000000000000000000000000000000000000,0x40000000000000000000000000000000,0x100000000000100005402b880024003f108000220042e08800000430880820404008000ca0000040002440303fffff022480000482c00000040038210600141000000000000000000]
  .l)) [0x40000000000000000,0x10000000000,0x400,0x5] (.n (.n (.n .l
  [0x10000000000000000000000000000000000000000000000000000000000000000000000000000000000000000000000000000000000000000000000000000000000000000000000000000000,0x200000000000000000000000000000000000000000000000000000000000000000000000000000000000000000000000000000000000000000000000000000000000000000000000000000,0x4000000000000000000000000000000000000000000000000000000000000000000000000000000000000000000000000000000000000000000000000000000000000000000000000000,0x8000000000000000000000000000000000000000000000000000000000000000000000000000000000000000000000000000000000000000000000000000000000000000000000000,0x4000000000000000000000000000000000000000000000000000000000000000000000000000000000000000000000000000000000000000000000000000000000000000000,0x400000000000000000000000000000000000000000000000000000000000000000000000000000000000000000000000000000000000000000000000000000000,0x100000000000000000000000000000000000000000000000000000000000000000000000000000000000000000000000000000000000000000000000,0x4000000000000000000000000000000000000000000000000000000000000000000000000000000000000000000000000000000000000,0x100000000000000000000000000000000000000000000000000000000000000000000000000000000000000000000,0x40000000000000000000000000000000000000000000000000000000000000000000,0x400000000000000000000000000000000000000000,0x100000000000000000000,0x2000000000000,0x80000,0x20005]
  .l)
  [0x40000000000000000000000000000000000000000000000000000000000000,0x20000000000000000000000000c000000000000000000000000000040000000000000000000000000000000]
  .l)
  [0x8000000000000000000000000000,0x100000000000100005402b880024003f108000220042e08800000430880820404008000ca0000040002440303fffff022480000482c00000040018210600141000000000000000000]
  (.n .l
  [0x1000000000000000000000000000000000000000000000000000000000000000000000000000000000000000000000000000000000000000,0x2000000000000000000000000000000000000000000000000000000000000000000000000000000000000000000000000,0x4000000000000000000000000000000000000000000000000000000000000000000000000,0x2000000000000000000000000000000000000000000000,0x800000000000000000000000000c0000000000000000000020000000000000000000000]
  .l)))) [0x20005] (.n (.n (.n (.n (.n .l
  [0x800000000000000000000000000000000000000000000000000000000000000000000000000000000000000000000000000000000000000000000000000,0x100000000000000000000000000000000000000000000000000000000000000000000000000000000000000000000000000000000000000000,0x4000000000000000000000000000000000000000000000000000000000000000000000000000000000000000000000000000,0x80000000000000000000000000000000000000000000000000000000000000000000000000000000000,0x400000000000000000000000000000004000000000000000000000000000000000000000000000000000000000,0x40000000000000000000000000000000000010000000000000000000000000000,0x200000000010000000000000000000000000000000000002c200000000220000000000101a40000001a000000000000200400001000000000000000000]
  .l)
  [0x2000000000000000000000000000000000000000000,0x200000000000000000000,0x10000000000000,0x4000000,0x40,0x5]
  .l)
  [0x100000000000100005402b880024003f108000220042e08800000430880820404008000ca0000040002440303fffff022480000482c00000040018210600141000000000000000000]
  (.n .l
  [0x400000000000000000000000000000000000000000000000000000000000000000000000000000000000,0x8000000000000000000000000000000000000000000000000000000000,0x40000000000000000000000000000000000010000000000000000000000000000,0x200000000010000000000000000000000000000000000002c200000000220000000000101a40000001a000000000000200400001000000000000000000]
  .l)) [0x10000000000000,0x4000000,0x40,0x5] (.n (.n (.n .l
  [0x100000000000000000000000000000000000000000000000000000000000000000000000000000000000000000000000000000000000000000000000000000000000000000000000000,0x80000000000000000000000000000000000000000000000000000000000000000000000000000000000000000000000000000000000000000000000000000000000000000000,0x8000000000000000000000000000000000000000000000000000000000000000000000000000000000000000000000000000000000000000000000000000000000,0x2000000000000000000000000000000000000000000000000000000000000000000000000000000000000000000000000000000000000000000000000,0x80000000000000000000000000000000000000000000000000000000000000000000000000000000000000000000000000000000000000,0x2000000000000000000000000000000000000000000000000000000000000000000000000000000000000000000000,0x400000000000000000000000000000000000000000000000000000000000000000000,0x1000000000000000000000000000000000000000000,0x100000000000000000000,0x2000000000000,0x80000,0x20005]
  .l)
  [0x2000000000000000000000000020000000000000000000000000000000000000000000000000000000000,0x20000000000000000000000000000000000000000000000000000000000000000010000000000000000080000000000010000000000000000000000000000]
  .l)
  [0x1000000801c050a2800120887a000030538440010d400800230500000404020801fbff5e1010000040000988041000000040000001040000000000001000000000000000000000000000,0x100000000000100005402b880024003f108000220042e08800000430880820404008000ca0000040002440303fffff022480000482c00000040018210600141000000000000000000]
  (.n .l
  [0x800000000000000000000000000000000000000000000000000000000000000000000000000000000000000000000000000000000,0x1000000000000000000000000000000000000000000000000000000000000000000000000000000000000000,0x8000000000000000000000000000000000000000000000000000000000000,0x40000000000000000000000000000000,0x100000000000100005402b880024003f108000220042e08800000430880820404008000ca0000040002440303fffff022480000482c00000040038210600141000000000000000000]
  .l))) [0x1000000,0x20,0x5] (.n (.n (.n (.n .l
  [0x1000000000000000000000000000000000000000000000000000000000000000000000000000000000000000000000000000000000000000000000000000000000000,0x400000000000000000000000000000000000000000000000000000000000000000000000000000000000000000000000000000000000000000000000000,0x80000000000000000000000000000000000000000000000000000000000000000000000000000000000000000000000000000000000000000,0x2000000000000000000000000000000000000000000000000000000000000000000000000000000000000000000000000000,0x40000000000000000000000000000000000000000000000000000000000000000000000000000000000,0x1000000000000000000000000000000000000000000000000000000000,0x8000000000000000000000000000,0x100000000000100005402b880024003f108000220042e08800000430880820404008000ca0000040002440303fffff022480000482c00000040018210600141000000000000000000]
  .l)
  [0x8000000000000000000000000000000000000000000000000000,0x1000000801c050a2800120887a000030538440010d400800230500000404020801fbff5e1010000040000988041000000040000001040000000000001000000000000000000000000000,0x100000000000100005402b880024003f108000220042e08800000430880820404008000ca0000040002440303fffff022480000482c00000040018210600141000000000000000000]
  .l)
  [0x400038000002001c000000000000000000800000008000000028000000000000430000000000040000000000000600080000000000000000020000000000000000000000]
  (.n .l
  [0x200000000000000000000000000000000000000000000000000000000000000000000000000000000000000000000,0x40000000000000000000000000000000000000000000000000000000000000000000,0x400000000000000000000000000000000000000000,0x100000000000000000000,0x2000000000000,0x80000,0x20005]
  .l))
  [0x100000000000100005402b880024003f108000220042e08800000430880820404008000ca0000040002440303fffff022480000482c00000040018210600141000000000000000000]
  (.n (.n .l
  [0x100000000000000000000000000000000000000000000000000000000000000000000,0x800000000000000000000000000000000000000000,0x100000000000000000000,0x2000000000000,0x80000,0x20005]
  .l)
  [0x40000000000000000000000000000000,0x100000000000100005402b880024003f108000220042e08800000430880820404008000ca0000040002440303fffff022480000482c00000040038210600141000000000000000000]
  (.n .l
  [0x1000000000000000000000000000000000000000000000000000000000000000000000000000000000000000000000000000000000000000000,0x40000000000000000000000000000000000000000000000000000000000000000000000000000000000000000000000000000,0x200000000000000000000000000000000000000000000000000000000000000000000000000000000000,0x8000000000000000000000000000000000000000000000000000000000,0x40000000000000000000000000000000000010000000000000000000000000000,0x200000000010000000000000000000000000000000000002c200000000220000000000101a40000001a000000000000200400001000000000000000000]
  .l))))) [0x5] (.n (.n (.n (.n (.n (.n .l
  [0x20000000000000000000000000000000000000000000000000000000000000000000000000000000000000000000000000000000000000000000000000,0x2000000000000000000000000000000000000000000000000000000000000000000000000000000000000000000000000000000000000000,0x2000000000000000000000000000000000000000000000000000000000000000000000000000000000000000000000000,0x4000000000000000000000000000000000000000000000000000000000000000000000000,0x2000000000000000000000000000000000000000000000,0x800000000000000000000000000c0000000000000000000020000000000000000000000]
  .l)
  [0x100000000000000000000000000000000000000000,0x80000000000000000000,0x800000000000,0x8000010000,0x205]
  .l)
  [0x100000000000100005402b880024003f108000220042e08800000430880820404008000ca0000040002440303fffff022480000482c00000040018210600141000000000000000000]
  (.n .l
  [0x2000000000000000000000000000000000000000000000000000000000000000000000000000000000,0x800000000000000000000000000000000000000000000000000000040000000000000000000000000000000000000000000000000000000,0x1000000801c050a2800120887a000030538440010d400800230500000404020801fbff5e1010000040000988041000000040000001040000000000001000000000000000000000000000,0x100000000000100005402b880024003f108000220042e08800000430880820404008000ca0000040002440303fffff022480000482c00000040018210600141000000000000000000]
  .l)) [0x8000080000000000,0x2000002000,0x205] (.n (.n (.n .l
  [0x80000000000000000000000000000000000000000000000000000000000000000000000000000000000000000000000000000000000000000000000000000000000000000000000,0x80000000000000000000000000000000000000000000000000000000000000000000000000000000000000000000000000000000000000000000000000000000000000,0x2000000000000000000000000000000000000000000000000000000000000000000000000000000000000000000000000000000000000000000000000000,0x400000000000000000000000000000000000000000000000000000000000000000000000000000000000000000000000000000000000000000,0x10000000000000000000000000000000000000000000000000000000000000000000000000000000000000000000000000000,0x80000000000000000000000000000000000000000000000000000000000000000000000000000000000,0x400000000000000000000000000000004000000000000000000000000000000000000000000000000000000000,0x40000000000000000000000000000000000010000000000000000000000000000,0x200000000010000000000000000000000000000000000002c200000000220000000000101a40000001a000000000000200400001000000000000000000]
  .l)
  [0x400000000000000000000000000000004000000000000000000000000000000000000000000000000000000000,0x40000000000000000000000000000000000010000000000000000000000000000,0x200000000010000000000000000000000000000000000002c200000000220000000000101a40000001a000000000000200400001000000000000000000]
  .l) [0x200000000000000000000000000,0x800000000000000000,0x20000000000,0x800,0x5] (.n .l
  [0x200000000000000000000000000000000000000000000000000000000000000000000000000000000000000000000000000000,0x1000000000000000000000000000000000000000000000000000000000000000000000000000000000000,0x80000000000000000000000008000000000000000000000000000000000000000000000000000000000,0x400000000000000000000000040000004000000000000000000000000000010000000000000000000000000000]
  .l))) [0x2000,0x5] (.n (.n (.n (.n .l
  [0x800000000000000000000000000000000000000000000000000000000000000000000000000000000000000000000000000000000000000000000000000000000,0x200000000000000000000000000000000000000000000000000000000000000000000000000000000000000000000000000000000000000000000000,0x8000000000000000000000000000000000000000000000000000000000000000000000000000000000000000000000000000000000000,0x200000000000000000000000000000000000000000000000000000000000000000000000000000000000000000000,0x40000000000000000000000000000000000000000000000000000000000000000000,0x400000000000000000000000000000000000000000,0x100000000000000000000,0x2000000000000,0x80000,0x20005]
  .l)
  [0x10000000000000000000000000000000000000000000000000,0x4000000000000000000000000,0x10000000000000000,0x4000000000,0x200,0x5]
  .l) [0x400000000000000000000,0x10000000000000,0x4000000,0x40,0x5] (.n .l
  [0x2000000000000000000000000000000000000000000000000000000000000000000000000000000000000000000,0x2000000000000000000000000000000000000000000000000000000000000000000,0x40000000000000000000000000000000000000000,0x200040000000000000000000,0x1000200000000000,0x400008000,0x205]
  .l)) [0x1000000000000000000,0x20000000000,0x800,0x5] (.n (.n (.n .l
  [0x8000000000000000000000000000000000000000000000000000000000000000000000000000000000000000000000000000000000000000000000000000000000000000000000000000000000,0x200000000000000000000000000000000000000000000000000000000000000000000000000000000000000000000000000000000000000000000000000000000000000000000000000000000,0x4000000000000000000000000000000000000000000000000000000000000000000000000000000000000000000000000000000000000000000000000000000000000000000000000000000,0x80000000000000000000000000000000000000000000000000000000000000000000000000000000000000000000000000000000000000000000000000000000000000000000000000000,0x100000000000000000000000000000000000000000000000000000000000000000000000000000000000000000000000000000000000000000000000000000000000000000000000000,0x80000000000000000000000000000000000000000000000000000000000000000000000000000000000000000000000000000000000000000000000000000000000000000000,0x8000000000000000000000000000000000000000000000000000000000000000000000000000000000000000000000000000000000000000000000000000000000,0x2000000000000000000000000000000000000000000000000000000000000000000000000000000000000000000000000000000000000000000000000,0x80000000000000000000000000000000000000000000000000000000000000000000000000000000000000000000000000000000000000,0x2000000000000000000000000000000000000000000000000000000000000000000000000000000000000000000000,0x400000000000000000000000000000000000000000000000000000000000000000000,0x1000000000000000000000000000000000000000000,0x100000000000000000000,0x2000000000000,0x80000,0x20005]
  .l)
  [0x8000000000000000000000000000000000000000000000000000000000000000000,0x100000000000000000000000000000000000000000,0x80000000000000000000,0x800000000000,0x8000010000,0x205]
  .l)
  [0x20000000000000000000000000000,0x100000000000100005402b880024003f108000220042e08800000430880820404008000ca0000040002440303fffff022480000482c00000040018210600141000000000000000000]
  (.n .l
  [0x100000000000000000000000000000000000000000000000000000000000000000000000000000000000000000000000000000000000000000,0x4000000000000000000000000000000000000000000000000000000000000000000000000000000000000000000000000000,0x80000000000000000000000000000000000000000000000000000000000000000000000000000000000,0x400000000000000000000000000000004000000000000000000000000000000000000000000000000000000000,0x40000000000000000000000000000000000010000000000000000000000000000,0x200000000010000000000000000000000000000000000002c200000000220000000000101a40000001a000000000000200400001000000000000000000]
  .l)))) [0x40,0x5] (.n (.n (.n (.n (.n .l
  [0x4000000000000000000000000000000000000000000000000000000000000000000000000000000000000000000000000000000000000000000000000000,0x800000000000000000000000000000000000000000000000000000000000000000000000000000000000000000000000000000000000000000,0x20000000000000000000000000000000000000000000000000000000000000000000000000000000000000000000000000000,0x100000000000000000000000000000000000000000000000000000000000000000000000000000000000,0x8000000000000000000000000000000000000000000000000000000000,0x40000000000000000000000000000000000010000000000000000000000000000,0x200000000010000000000000000000000000000000000002c200000000220000000000101a40000001a000000000000200400001000000000000000000]
  .l)
  [0x80000000000000000000000000000000000000000000,0x20000000000000000000000,0x100000000000100005402b8a0024003f118000220042e08800000430880820404008002ca0000040022440303fffff03a48000049ac00000040018210600141000200000000000000]
  .l)
  [0x10000000000010000540280800240007108000220042e08800000430880820404008000ca0000040002440303fffff022480000482c00000040018210600141000000000000000000]
  (.n .l
  [0x80000000000000000000000000000000000000000000000000000000000000000000000000000000000000,0x4000000000000000000000000000000000002000000000000008000000000000000000000000040000000000000000000000000000000000000000000000000000000000,0x20000000000000000000000000000000000000002040000000000000000000000030000000000000000080000000000010000000000000000000000000000]
  .l)) [0x400000000000000,0x100000000,0x100,0x5] (.n (.n (.n .l
  [0x100000000000000000000000000000000000000000000000000000000000000000000000000000000000000000000000000000000000000000000000000000000000000000000000000000,0x2000000000000000000000000000000000000000000000000000000000000000000000000000000000000000000000000000000000000000000000000000000000000000000000000000,0x4000000000000000000000000000000000000000000000000000000000000000000000000000000000000000000000000000000000000000000000000000000000000000000000000,0x2000000000000000000000000000000000000000000000000000000000000000000000000000000000000000000000000000000000000000000000000000000000000000000,0x200000000000000000000000000000000000000000000000000000000000000000000000000000000000000000000000000000000000000000000000000000000,0x80000000000000000000000000000000000000000000000000000000000000000000000000000000000000000000000000000000000000000000000,0x2000000000000000000000000000000000000000000000000000000000000000000000000000000000000000000000000000000000000,0x80000000000000000000000000000000000000000000000000000000000000000000000000000000000000000000,0x20000000000000000000000000000000000000000000000000000000000000000000,0x400000000000000000000000000000000000000000,0x100000000000000000000,0x2000000000000,0x80000,0x20005]
  .l)
  [0x4000000000000000000000000000000000000000000000000000000000000,0x40000000000000000000000000000000,0x100000000000100005402b880024003f108000220042e08800000430880820404008000ca0000040002440303fffff022480000482c00000040038210600141000000000000000000]
  .l)
  [0x1000000801c050a2800120887a000030538440010d400800230500000404020801fbff5e1010000040000988041000000040000001040000000000001000000000000000000000000000,0x100000000000100005402b880024003f108000220042e08800000430880820404008000ca0000040002440303fffff022480000482c00000040018210600141000000000000000000]
  (.n .l
  [0x2000000000000000000000000000000000000000000000000000000000000000000000000000000000000000000000000000000000000,0x80000000000000000000000000000000000000000000000000000000000000000000000000000000000000000000,0x20000000000000000000000000000000000000000000000000000000000000000000,0x400000000000000000000000000000000000000000,0x100000000000000000000,0x2000000000000,0x80000,0x20005]
  .l))) [0x200000000,0x200,0x5] (.n (.n (.n (.n .l
  [0x80000000000000000000000000000000000000000000000000000000000000000000000000000000000000000000000000000000000000000000000000000000000000,0x2000000000000000000000000000000000000000000000000000000000000000000000000000000000000000000000000000000000000000000000000000,0x400000000000000000000000000000000000000000000000000000000000000000000000000000000000000000000000000000000000000000,0x10000000000000000000000000000000000000000000000000000000000000000000000000000000000000000000000000000,0x80000000000000000000000000000000000000000000000000000000000000000000000000000000000,0x400000000000000000000000000000004000000000000000000000000000000000000000000000000000000000,0x40000000000000000000000000000000000010000000000000000000000000000,0x200000000010000000000000000000000000000000000002c200000000220000000000101a40000001a000000000000200400001000000000000000000]
  .l)
  [0x200000000000000000000000000000000000000000000000000000,0x1000000801c050a2800120887a000030538440010d400800230500000404020801fbff5e1010000040000988041000000040000001040000000000001000000000000000000000000000,0x100000000000100005402b880024003f108000220042e08800000430880820404008000ca0000040002440303fffff022480000482c00000040018210600141000000000000000000]
  .l) [0x100000000000000000000000,0x800000000000000,0x200000000,0x200,0x5] (.n .l
  [0x1000000000000000000000000000000000000000000000000000000000000000000000000000000000000000000000000,0x2000000000000000000000000000000000000000000000000000000000000000000000000,0x1000000000000000000000000000000000000000000000,0x800000000000000000000008800000000000000000000000000c0000000000000000000020000000000000000000000]
  .l))
  [0x100000000000100005402b880024003f108000220042e08800000430880820404008000ca0000040002440303fffff022480000482c00000040018210600141000000000000000000]
  (.n (.n .l
  [0x8000000000000000000000400000000000000000000000000000000000000000000000000000000000000000000000,0x10000000000000000000000000200000000000000000000000000000000000000000000,0x800000000000000000000000000c0000000000000000000020000000000000000000000]
  .l)
  [0x80000000000200000000000002000000002000000000000000000000000000000000000000,0x1000000001000000000000001000002000000000000000000]
  (.n .l
  [0x80000000000000000000000000000000000000000000000000000000000000000000000000000000000000000000000000000000000000000000,0x10000000000000000000000000000000000000000000000000000000000000000000000000000000000000000000000000000000,0x200000000000000000000000000000000000000000000000000000000000000000000000000000000000000,0x4000000000000000000000000000000000000000000000000000000000000,0x40000000000000000000000000000000,0x100000000000100005402b880024003f108000220042e08800000430880820404008000ca0000040002440303fffff022480000482c00000040038210600141000000000000000000]
  .l))))))) [0x1] (.n (.n (.n (.n (.n (.n (.n (.n .l
  [0x80000000000000000000000000000000000000000000000000000000000000000000000000000000000000000000000000000000000000000000000,0x2000000000000000000000000000000000000000000000000000000000000000000000000000000000000000000000000000000000000,0x80000000000000000000000000000000000000000000000000000000000000000000000000000000000000000000,0x20000000000000000000000000000000000000000000000000000000000000000000,0x400000000000000000000000000000000000000000,0x100000000000000000000,0x2000000000000,0x80000,0x20005]
  .l)
  [0x200000000002000000000000008000000008000000000000000000000000000000000000000,0x4000000004000000000000002000004000000000000000000]
  .l)
  [0x100000000000100005402b880024003f108000220042e08800000430880820404008000ca0000040002440303fffff022480000482c00000040018210600141000000000000000000]
  (.n .l
  [0x4000000000000000000000000000000000000000000000000000000000000000000000000,0x2000000000000000000000000000000000000000000000,0x800000000000000000000000000c0000000000000000000020000000000000000000000]
  .l)) [0x8000000000,0x200,0x5] (.n (.n (.n .l
  [0x400000000000000000000000000000000000000000000000000000000000000000000000000000000000000000000000000000000000000000000000000000000000000000,0x4000000000000000000000000000000000000000000000000000000000000000000000000000000000000000000000000000000000000000000000000000000,0x8000000000000000000000000000000000000000000000000000000000000000000000000000000000000000000000000000000000000000000,0x200000000000000000000000000000000000000000000000000000000000000000000000000000000000000000000000000000,0x1000000000000000000000000000000000000000000000000000000000000000000000000000000000000,0x80000000000000000000000008000000000000000000000000000000000000000000000000000000000,0x400000000000000000000000040000004000000000000000000000000000010000000000000000000000000000]
  .l)
  [0x8000000000000000000000000000000000000000000000000000000,0x1000000801c050a2800120887a000030538440010d400800230500000404020801fbff5e1010000040000988041000000040000001040000000000001000000000000000000000000000,0x100000000000100005402b880024003f108000220042e08800000430880820404008000ca0000040002440303fffff022480000482c00000040018210600141000000000000000000]
  .l) [0x1000000000000000000000000,0x4000000000000000,0x1000000000,0x200,0x5] (.n .l
  [0x200000000000000000000000000000000000000000000000000000000000000000000000000000000000000000000000000,0x400000000000000000000000000000000000000000000000000000000000000000000000000000000,0x20000000000000000000000000000000000000000000000000000000000000000000010000000000000000000000000000000000000000000000000000000,0x1000000801c050a2800120887a000030538440010d400800230500000404020801fbff5e1010000040000988041000000040000001040000000000001000000000000000000000000000,0x100000000000100005402b880024003f108000220042e08800000430880820404008000ca0000040002440303fffff022480000482c00000040018210600141000000000000000000]
  .l))) [0x200,0x5] (.n (.n (.n (.n .l
  [0x100000000000000000000000000000000000000000000000000000000000000000000000000000000000000000000000000000000000000000000000000000,0x1000000000000000000000000000000000000000000000000000000000000000000000000000000000000000000000000000000000000000000,0x40000000000000000000000000000000000000000000000000000000000000000000000000000000000000000000000000000,0x200000000000000000000000000000000000000000000000000000000000000000000000000000000000,0x8000000000000000000000000000000000000000000000000000000000,0x40000000000000000000000000000000000010000000000000000000000000000,0x200000000010000000000000000000000000000000000002c200000000220000000000101a40000001a000000000000200400001000000000000000000]
  .l)
  [0x1000000000000000000000000000000000000000000000,0x800000000000000000000008800000000000000000000000000c0000000000000000000020000000000000000000000]
  .l) [0x40000000000000000000,0x200000000000,0x8000,0x5] (.n .l
  [0x800000000000000000000000000000000000000000000000000000000000000000000000000000000000000,0x4000000000000000000000000000000000000000000000000000000000000,0x40000000000000000000000000000000,0x100000000000100005402b880024003f108000220042e08800000430880820404008000ca0000040002440303fffff022480000482c00000040038210600141000000000000000000]
  .l)) [0x8000000000000000,0x2000000000,0x200,0x5] (.n (.n (.n .l
  [0x4000000000000000000000000000000000000000000000000000000000000000000000000000000000000000000000000000000000000000000000000000000000000000000000000000000,0x80000000000000000000000000000000000000000000000000000000000000000000000000000000000000000000000000000000000000000000000000000000000000000000000000000,0x100000000000000000000000000000000000000000000000000000000000000000000000000000000000000000000000000000000000000000000000000000000000000000000000000,0x80000000000000000000000000000000000000000000000000000000000000000000000000000000000000000000000000000000000000000000000000000000000000000000,0x8000000000000000000000000000000000000000000000000000000000000000000000000000000000000000000000000000000000000000000000000000000000,0x2000000000000000000000000000000000000000000000000000000000000000000000000000000000000000000000000000000000000000000000000,0x80000000000000000000000000000000000000000000000000000000000000000000000000000000000000000000000000000000000000,0x2000000000000000000000000000000000000000000000000000000000000000000000000000000000000000000000,0x400000000000000000000000000000000000000000000000000000000000000000000,0x1000000000000000000000000000000000000000000,0x100000000000000000000,0x2000000000000,0x80000,0x20005]
  .l)
  [0x10000000000000000000000000000000000000000000000000000000000000,0x40000000000000000000000000000000,0x100000000000100005402b880024003f108000220042e08800000430880820404008000ca0000040002440303fffff022480000482c00000040038210600141000000000000000000]
  .l)
  [0x1000000801c050a2800120887a000030538440010d400800230500000404020801fbff5e1010000040000988041000000040000001040000000000001000000000000000000000000000,0x100000000000100005402b880024003f108000220042e08800000430880820404008000ca0000040002440303fffff022480000482c00000040018210600141000000000000000000]
  (.n .l
  [0x80000000000000000000000000000000000000000000000000000000000000000000000000000000000000000000000000000000000000,0x2000000000000000000000000000000000000000000000000000000000000000000000000000000000000000000000,0x400000000000000000000000000000000000000000000000000000000000000000000,0x1000000000000000000000000000000000000000000,0x100000000000000000000,0x2000000000000,0x80000,0x20005]
  .l)))) [0x5] (.n (.n (.n (.n (.n .l
  [0x800000000000000000000000000000000000000000000000000000000000000000000000000000000000000000000000000000000000000000000000000,0x100000000000000000000000000000000000000000000000000000000000000000000000000000000000000000000000000000000000000000,0x4000000000000000000000000000000000000000000000000000000000000000000000000000000000000000000000000000,0x80000000000000000000000000000000000000000000000000000000000000000000000000000000000,0x400000000000000000000000000000004000000000000000000000000000000000000000000000000000000000,0x40000000000000000000000000000000000010000000000000000000000000000,0x200000000010000000000000000000000000000000000002c200000000220000000000101a40000001a000000000000200400001000000000000000000]
  .l)
  [0x1000000000000000000000000000000000000000000,0x100000000000000000000,0x2000000000000,0x80000,0x20005]
  .l)
  [0x100000000000100005402b880024003f108000220042e08800000430880820404008000ca0000040002440303fffff022480000482c00000040018210600141000000000000000000]
  (.n .l
  [0x100000000000000000000000000000000000000000000000000000000000000000000000000000000000,0x8000000000000000000000000000000000000000000000000000000000,0x40000000000000000000000000000000000010000000000000000000000000000,0x200000000010000000000000000000000000000000000002c200000000220000000000101a40000001a000000000000200400001000000000000000000]
  .l)) [0x10000000000000,0x4000000,0x40,0x5] (.n (.n (.n .l
  [0x40000000000000000000000000000000000000000000000000000000000000000000000000000000000000000000000000000000000000000000000000000000000000000000000000,0x20000000000000000000000000000000000000000000000000000000000000000000000000000000000000000000000000000000000000000000000000000000000000000000,0x2000000000000000000000000000000000000000000000000000000000000000000000000000000000000000000000000000000000000000000000000000000000,0x800000000000000000000000000000000000000000000000000000000000000000000000000000000000000000000000000000000000000000000000,0x20000000000000000000000000000000000000000000000000000000000000000000000000000000000000000000000000000000000000,0x800000000000000000000000000000000000000000000000000000000000000000000000000000000000000000000,0x100000000000000000000000000000000000000000000000000000000000000000000,0x800000000000000000000000000000000000000000,0x100000000000000000000,0x2000000000000,0x80000,0x20005]
  .l)
  [0x10000000000000000000000000000000000000000000000000000000000,0x20000000000000000000000000000000000000000000000000000000000000000000000000000000000080000000000010000000000000000000000000000,0x100000000000100005402b880024003f108000220042e08800000430880820404008000ca0000040002440303fffff022480000482c00000040018210600141000000000000000000]
  .l)
  [0x1000000801c050a2800120887a000030538440010d400800230500000404020801fbff5e1010000040000988041000000040000001040000000000001000000000000000000000000000,0x100000000000100005402b880024003f108000220042e08800000430880820404008000ca0000040002440303fffff022480000482c00000040018210600141000000000000000000]
  (.n .l
  [0x20000000000000000000000000000000000000000000000000000000000000000000000000000000000000000000000000000000,0x200000000000000000000000000000000000000000000000000000000000000000000000000000000000000,0x4000000000000000000000000000000000000000000000000000000000000,0x40000000000000000000000000000000,0x100000000000100005402b880024003f108000220042e08800000430880820404008000ca0000040002440303fffff022480000482c00000040038210600141000000000000000000]
  .l))) [0x80000,0x20005] (.n (.n (.n (.n .l
  [0x100000000000000000000000000000000000000000000000000000000000000000000000000000000000000000000000000000000000000000000000000000000000,0x20000000000000000000000000000000000000000000000000000000000000000000000000000000000000000000000000000000000000000000000000,0x2000000000000000000000000000000000000000000000000000000000000000000000000000000000000000000000000000000000000000,0x2000000000000000000000000000000000000000000000000000000000000000000000000000000000000000000000000,0x4000000000000000000000000000000000000000000000000000000000000000000000000,0x2000000000000000000000000000000000000000000000,0x800000000000000000000000000c0000000000000000000020000000000000000000000]
  .l)
  [0x2000000000000000000000000000000000000000000000000000,0x1000000801c050a2800120887a000030538440010d400800230500000404020801fbff5e1010000040000988041000000040000001040000000000001000000000000000000000000000,0x100000000000100005402b880024003f108000220042e08800000430880820404008000ca0000040002440303fffff022480000482c00000040018210600141000000000000000000]
  .l) [0x80000000000000000000020000000000000000000000] (.n .l
  [0x80000000000000000000000000000000000000000000000000000000000000000000000000000000000000000000,0x20000000000000000000000000000000000000000000000000000000000000000000,0x400000000000000000000000000000000000000000,0x100000000000000000000,0x2000000000000,0x80000,0x20005]
  .l))
  [0x100000000000100005402b880024003f108000220042e08800000430880820404008000ca0000040002440303fffff022480000482c00000040018210600141000000000000000000]
  (.n (.n .l
  [0x40000000000000000000000000000000000000000000000000000000000000000000,0x400000000000000000000000000000000000000000,0x100000000000000000000,0x2000000000000,0x80000,0x20005]
  .l)
  [0x20000000000000000000000000000,0x100000000000100005402b880024003f108000220042e08800000430880820404008000ca0000040002440303fffff022480000482c00000040018210600141000000000000000000]
  (.n .l
  [0x3800000003800000000000000000000000000000000000000000000000000000000000000000000000000000000000000000000000000000000000000000,0x7000000000000e0000000000000000000000000000000000000000000000000000000000000000000000000000000000000000000000000000,0x1c000000000000000700000000000000000000000000000000000000000000000000000000000000000000000000000000000]
  .l))))) [0x5] (.n (.n (.n (.n (.n (.n .l
  [0x8000000000000000000000000000000000000000000000000000000000000000000000000000000000000000000000000000000000000000000000000,0x1000000000000000000000000000000000000000000000000000000000000000000000000000000000000000000000000000000000000000,0x2000000000000000000000000000000000000000000000000000000000000000000000000000000000000000000000000,0x4000000000000000000000000000000000000000000000000000000000000000000000000,0x2000000000000000000000000000000000000000000000,0x800000000000000000000000000c0000000000000000000020000000000000000000000]
  .l)
  [0x40000000000000000000000000000000000000000,0x200040000000000000000000,0x1000200000000000,0x400008000,0x205]
  .l)
  [0x100000000000100005402b880024003f108000220042e08800000430880820404008000ca0000040002440303fffff022480000482c00000040018210600141000000000000000000]
  (.n .l
  [0x400000000000000000000000000000000000000000000000000000000000000000000000000000000,0x20000000000000000000000000000000000000000000000000000000000000000000010000000000000000000000000000000000000000000000000000000,0x1000000801c050a2800120887a000030538440010d400800230500000404020801fbff5e1010000040000988041000000040000001040000000000001000000000000000000000000000,0x100000000000100005402b880024003f108000220042e08800000430880820404008000ca0000040002440303fffff022480000482c00000040018210600141000000000000000000]
  .l)) [0x40000000000,0x1000,0x5] (.n (.n (.n .l
  [0x1000000000000000000000000000000000000000000000000000000000000000000000000000000000000000000000000000000000000000000000000000000000000000000000,0x2000000000000000000000000000000000000000000000000000000000000000000000000000000000000000000000000000000000000000000000000000000000000,0x800000000000000000000000000000000000000000000000000000000000000000000000000000000000000000000000000000000000000000000000000,0x100000000000000000000000000000000000000000000000000000000000000000000000000000000000000000000000000000000000000000,0x4000000000000000000000000000000000000000000000000000000000000000000000000000000000000000000000000000,0x80000000000000000000000000000000000000000000000000000000000000000000000000000000000,0x400000000000000000000000000000004000000000000000000000000000000000000000000000000000000000,0x40000000000000000000000000000000000010000000000000000000000000000,0x200000000010000000000000000000000000000000000002c200000000220000000000101a40000001a000000000000200400001000000000000000000]
  .l)
  [0x800000000000000000000000000000000000000000000000000000000,0x8000000000000000000000000000,0x100000000000100005402b880024003f108000220042e08800000430880820404008000ca0000040002440303fffff022480000482c00000040018210600141000000000000000000]
  .l)
  [0x100000000000000000000000000,0x400000000000000000,0x10000000000900000000000000010000000000000004000000000000000000000000400000000300000000000000000000000406800070000000000]
  (.n .l
  [0x80000000000000000000000000000000000000000000000000000000000000000000000000000000000000000000000000000,0x400000000000000000000000000000000000000000000000000000000000000000000000000000000000,0x8000000000000000000000000000000000000000000000000000000000,0x40000000000000000000000000000000000010000000000000000000000000000,0x200000000010000000000000000000000000000000000002c200000000220000000000101a40000001a000000000000200400001000000000000000000]
  .l))) [0x800,0x5] (.n (.n (.n (.n .l
  [0x200000000000000000000000000000000000000000000000000000000000000000000000000000000000000000000000000000000000000000000000000000000,0x80000000000000000000000000000000000000000000000000000000000000000000000000000000000000000000000000000000000000000000000,0x2000000000000000000000000000000000000000000000000000000000000000000000000000000000000000000000000000000000000,0x80000000000000000000000000000000000000000000000000000000000000000000000000000000000000000000,0x20000000000000000000000000000000000000000000000000000000000000000000,0x400000000000000000000000000000000000000000,0x100000000000000000000,0x2000000000000,0x80000,0x20005]
  .l)
  [0x4000000000000000000000000000000000000000000000000,0x2000000000000000000000000,0x8000000000000000,0x2000000000,0x200,0x5]
  .l) [0x200000000000000000000,0x10000000000000,0x4000000,0x40,0x5] (.n .l
  [0x800000000000000000000000000000000000000000000000000000000000000000000000000000000000000000,0x80000000000000000000000000000000000000000000000000000000000000000,0x20000000001000000000000000000000000000000000000200000000002000000000000018000000018000000000000000000000000000000000000000,0x2000000000000002000000000000000000000000000000000000000000000004000000004000000000000006000014000000000000000000]
  .l)) [0x800000000000000000,0x20000000000,0x800,0x5] (.n (.n (.n .l
  [0x800000000000000000000000000000000000000000000000000000000000000000000000000000000000000000000000000000000000000000000000000000000000000000000000000000000,0x10000000000000000000000000000000000000000000000000000000000000000000000000000000000000000000000000000000000000000000000000000000000000000000000000000000,0x200000000000000000000000000000000000000000000000000000000000000000000000000000000000000000000000000000000000000000000000000000000000000000000000000000,0x4000000000000000000000000000000000000000000000000000000000000000000000000000000000000000000000000000000000000000000000000000000000000000000000000000,0x8000000000000000000000000000000000000000000000000000000000000000000000000000000000000000000000000000000000000000000000000000000000000000000000000,0x4000000000000000000000000000000000000000000000000000000000000000000000000000000000000000000000000000000000000000000000000000000000000000000,0x400000000000000000000000000000000000000000000000000000000000000000000000000000000000000000000000000000000000000000000000000000000,0x100000000000000000000000000000000000000000000000000000000000000000000000000000000000000000000000000000000000000000000000,0x4000000000000000000000000000000000000000000000000000000000000000000000000000000000000000000000000000000000000,0x100000000000000000000000000000000000000000000000000000000000000000000000000000000000000000000,0x40000000000000000000000000000000000000000000000000000000000000000000,0x400000000000000000000000000000000000000000,0x100000000000000000000,0x2000000000000,0x80000,0x20005]
  .l)
  [0x2000000000000000000000000000000000000000000000000000000000000000000,0x40000000000000000000000000000000000000000,0x200040000000000000000000,0x1000200000000000,0x400008000,0x205]
  .l)
  [0x20000000000000000000000000000000000000000000000000000000000000000000000000000000000080000000000010000000000000000000000000000,0x100000000000100005402b880024003f108000220042e08800000430880820404008000ca0000040002440303fffff022480000482c00000040018210600141000000000000000000]
  (.n .l
  [0x10000000000000000000000000000000000000000000000000000000000000000000000000000000000000000000000000000000000000000,0x4000000000000080000000000000000000000000000000000000000000000000000000000000000000000000000000000000000000000000]
  .l)))) [0x40,0x5] (.n (.n (.n (.n (.n .l
  [0x2000000000000000000000000000000000000000000000000000000000000000000000000000000000000000000000000000000000000000000000000000,0x400000000000000000000000000000000000000000000000000000000000000000000000000000000000000000000000000000000000000000,0x10000000000000000000000000000000000000000000000000000000000000000000000000000000000000000000000000000,0x80000000000000000000000000000000000000000000000000000000000000000000000000000000000,0x400000000000000000000000000000004000000000000000000000000000000000000000000000000000000000,0x40000000000000000000000000000000000010000000000000000000000000000,0x200000000010000000000000000000000000000000000002c200000000220000000000101a40000001a000000000000200400001000000000000000000]
  .l)
  [0x80000000000000000000000000040000000000000000000000000000000000000000000,0x80000000000000000000020000000000000000000000]
  .l)
  [0x100000000000100005402b880024003f108000220042e08800000430880820404008000ca0000040002440303fffff022480000482c00000040018210600141000000000000000000]
  (.n .l
  [0x20000000000000000000000000000000000000000000000000000000000000000000000000000000000000,0x4000000000000000000000000000000000000000000000000000000000000000000000000000040000000000000000000000000000000000000000000000000000000000,0x20000000000000000000000000000000000000000000000000000000000000000010000000000000000080000000000010000000000000000000000000000]
  .l))
  [0x100000000000100005402b8a0024003f118000220042e08800000430880820404008002ca0000040022440303fffff03a48000049ac00000040018210600141000200000000000000]
  (.n (.n (.n .l
  [0x40000000000000000000000000000000000000000000000000000000000000000000000000000000000000000000000000000000000000000000000000000000000000000000000000000,0x80000000000000000000000000000000000000000000000000000000000000000000000000000000000000000000000000000000000000000000000000000000000000000000000000,0x40000000000000000000000000000000000000000000000000000000000000000000000000000000000000000000000000000000000000000000000000000000000000000000,0x4000000000000000000000000000000000000000000000000000000000000000000000000000000000000000000000000000000000000000000000000000000000,0x1000000000000000000000000000000000000000000000000000000000000000000000000000000000000000000000000000000000000000000000000,0x40000000000000000000000000000000000000000000000000000000000000000000000000000000000000000000000000000000000000,0x1000000000000000000000000000000000000000000000000000000000000000000000000000000000000000000000,0x200000000000000000000000000000000000000000000000000000000000000000000,0x1000000000000000000000000000000000000000000,0x100000000000000000000,0x2000000000000,0x80000,0x20005]
  .l)
  [0x4000000000000000000000000000000000000000000000000000000000000,0x40000000000000000000000000000000,0x100000000000100005402b880024003f108000220042e08800000430880820404008000ca0000040002440303fffff022480000482c00000040038210600141000000000000000000]
  .l)
  [0x1000000801c050a2800120887a000030538440010d400800230500000404020801fbff5e1010000040000988041000000040000001040000000000001000000000000000000000000000,0x100000000000100005402b880024003f108000220042e08800000430880820404008000ca0000040002440303fffff022480000482c00000040018210600141000000000000000000]
  (.n .l
  [0x400000000000000000000000000000000000000000000000000000000000000000000000000000000000000000000000000000000000,0x10000000000000000000000000000000000000000000000000000000000000000000000000000000000000000000,0x8000000000000000000000000000000000000000000000000000000000000000000,0x100000000000000000000000000000000000000000,0x80000000000000000000,0x800000000000,0x8000010000,0x205]
  .l))) [0x80000000,0x80,0x5] (.n (.n (.n (.n .l
  [0x40000000000000000000000000000000000000000000000000000000000000000000000000000000000000000000000000000000000000000000000000000000000000,0x1000000000000000000000000000000000000000000000000000000000000000000000000000000000000000000000000000000000000000000000000000,0x200000000000000000000000000000000000000000000000000000000000000000000000000000000000000000000000000000000000000000,0x8000000000000000000000000000000000000000000000000000000000000000000000000000000000000000000000000000,0x80000000000000000000000000000000000000000000000000000000000000000000000000000000000,0x400000000000000000000000000000004000000000000000000000000000000000000000000000000000000000,0x40000000000000000000000000000000000010000000000000000000000000000,0x200000000010000000000000000000000000000000000002c200000000220000000000101a40000001a000000000000200400001000000000000000000]
  .l)
  [0x80000000000000000000000000000000000000000000000000000,0x1000000801c050a2800120887a000030538440010d400800230500000404020801fbff5e1010000040000988041000000040000001040000000000001000000000000000000000000000,0x100000000000100005402b880024003f108000220042e08800000430880820404008000ca0000040002440303fffff022480000482c00000040018210600141000000000000000000]
  .l)
  [0x800000000000000000000008800000000000000000000000000c0000000000000000000020000000000000000000000]
  (.n .l
  [0x80000000000000000000000000000000000000000000000000000000000000000000000000000000000000000000000,0x8000000000000000000000400000000000000000000000000000000000000000000000000000000000000000000000,0x10000000000000000000000000200000000000000000000000000000000000000000000,0x800000000000000000000000000c0000000000000000000020000000000000000000000]
  .l))
  [0x100000000000100005402b880024003f108000220042e08800000430880820404008000ca0000040002440303fffff022480000482c00000040018210600141000000000000000000]
  (.n (.n .l
  [0x20000000000000000000000000000000000000000000000000000000000000000000000,0x80000000000000000000000000040000000000000000000000000000000000000000000,0x80000000000000000000020000000000000000000000]
  .l) [0x1000000000000000000000000000000000000000,0x2000000000000000000,0x40000000000,0x1000,0x5]
  (.n .l
  [0x4000000000000000000000000000000000000000000000000000000000000000000000000000000000000000000000000000000000000000000,0x100000000000000000000000000000000000000000000000000000000000000000000000000000000000000000000000000000,0x800000000000000000000000000000000000000000000000000000000000000000000000000000000000,0x80000000000000000000000008000000000000000000000000000000000000000000000000000000000,0x400000000000000000000000040000004000000000000000000000000000010000000000000000000000000000]
  .l)))))) [0x5] (.n (.n (.n (.n (.n (.n (.n .l
  [0x800000000000000000000000000000000000000000000000000000000000000000000000000000000000000000000000000000000000000000000000,0x20000000000000000000000000000000000000000000000000000000000000000000000000000000000000000000000000000000000000,0x800000000000000000000000000000000000000000000000000000000000000000000000000000000000000000000,0x100000000000000000000000000000000000000000000000000000000000000000000,0x800000000000000000000000000000000000000000,0x100000000000000000000,0x2000000000000,0x80000,0x20005]
  .l)
  [0x10000000000000000000000000000000000000000,0x10000000000000000000,0x100000000000,0x4000,0x5]
  .l)
  [0x100000000000100005402b880024003f108000220042e08800000430880820404008000ca0000040002440303fffff022480000482c00000040018210600141000000000000000000]
  (.n .l
  [0x200000000000000000000000000000000000000000000000000000000000000000000000000,0x4000000000000000000000000000000000000000000000000,0x2000000000000000000000000,0x8000000000000000,0x2000000000,0x200,0x5]
  .l))
  [0x10000000000900000000000000010000000000000004000000000000000000000000400000000300000000000000000000000406800070000000000]
  (.n (.n (.n .l
  [0x10000000000000000000000000000000000000000000000000000000000000000000000000000000000000000000000000000000000000000000000000000000000000000000,0x1000000000000000000000000000000000000000000000000000000000000000000000000000000000000000000000000000000000000000000000000000000000,0x400000000000000000000000000000000000000000000000000000000000000000000000000000000000000000000000000000000000000000000000,0x10000000000000000000000000000000000000000000000000000000000000000000000000000000000000000000000000000000000000,0x400000000000000000000000000000000000000000000000000000000000000000000000000000000000000000000,0x80000000000000000000000000000000000000000000000000000000000000000000,0x400000000000000000000000000000000000000000,0x100000000000000000000,0x2000000000000,0x80000,0x20005]
  .l)
  [0x800000000000000000000000000000000000000000000000000000040000000000000000000000000000000000000000000000000000000,0x1000000801c050a2800120887a000030538440010d400800230500000404020801fbff5e1010000040000988041000000040000001040000000000001000000000000000000000000000,0x100000000000100005402b880024003f108000220042e08800000430880820404008000ca0000040002440303fffff022480000482c00000040018210600141000000000000000000]
  .l) [0x8000000000000000000000000,0x40000000000000000,0x10000000000,0x400,0x5] (.n .l
  [0x8000000000000000000000000000000000000000000000000000000000000000000000000000000000000000000000000000,0x80000000000000000000000000000000000000000000000000000000000000000000000000000000000,0x400000000000000000000000000000004000000000000000000000000000000000000000000000000000000000,0x40000000000000000000000000000000000010000000000000000000000000000,0x200000000010000000000000000000000000000000000002c200000000220000000000101a40000001a000000000000200400001000000000000000000]
  .l))) [0x200,0x5] (.n (.n (.n (.n .l
  [0x2000000000000000000000000000000000000000000000000000000000000000000000000000000000000000000000000000000000000000000000000000000,0x4000000000000000000000000000000000000000000000000000000000000000000000000000000000000000000000000000000000000000000,0x100000000000000000000000000000000000000000000000000000000000000000000000000000000000000000000000000000,0x800000000000000000000000000000000000000000000000000000000000000000000000000000000000,0x80000000000000000000000008000000000000000000000000000000000000000000000000000000000,0x400000000000000000000000040000004000000000000000000000000000010000000000000000000000000000]
  .l)
  [0x400000000000000000000000000000000000000000000000,0x800000000000000000000000,0x2000000000000000,0x800000000,0x200,0x5]
  .l) [0x80000000000000000000,0x800000000000,0x8000010000,0x205] (.n .l
  [0x8000000000000000000000000000000000000000000000000000000000000000000000000000000000000000,0x10000000000000001400000000000000000000000010000000000000000000000000000000000000000000000000000000000000,0x20000000000000000000000000c000000000000000000000000000040000000000000000000000000000000]
  .l))
  [0x80000000000000000,0x10000000000900000000000000010000000000000004000000000000000000000000400000000300000000000000000000000406800070000000000]
  (.n (.n (.n .l
  [0x40000000000000000000000000000000000000000000000000000000000000000000000000000000000000000000000000000000000000000000000000000000000000000000000000000000,0x800000000000000000000000000000000000000000000000000000000000000000000000000000000000000000000000000000000000000000000000000000000000000000000000000000,0x10000000000000000000000000000000000000000000000000000000000000000000000000000000000000000000000000000000000000000000000000000000000000000000000000000,0x20000000000000000000000000000000000000000000000000000000000000000000000000000000000000000000000000000000000000000000000000000000000000000000000000,0x10000000000000000000000000000000000000000000000000000000000000000000000000000000000000000000000000000000000000000000000000000000000000000000,0x1000000000000000000000000000000000000000000000000000000000000000000000000000000000000000000000000000000000000000000000000000000000,0x400000000000000000000000000000000000000000000000000000000000000000000000000000000000000000000000000000000000000000000000,0x10000000000000000000000000000000000000000000000000000000000000000000000000000000000000000000000000000000000000,0x400000000000000000000000000000000000000000000000000000000000000000000000000000000000000000000,0x80000000000000000000000000000000000000000000000000000000000000000000,0x400000000000000000000000000000000000000000,0x100000000000000000000,0x2000000000000,0x80000,0x20005]
  .l)
  [0x2000000000000000000000000000000000000000000000000000000000000000,0x4000000000000000000000000000000000000000,0x4000000000000000000,0x80000000000,0x2000,0x5]
  .l)
  [0x20000000000000000000000000000000000000000000000000000000000000000000000000000000000080000000000010000000000000000000000000000,0x100000000000100005402b880024003f108000220042e08800000430880820404008000ca0000040002440303fffff022480000482c00000040018210600141000000000000000000]
  (.n .l
  [0x2000000000000000000000000000000000000000000000000000000000000000000000000000000000000000000000000000000000000000,0x2000000000000000000000000000000000000000000000000000000000000000000000000000000000000000000000000,0x4000000000000000000000000000000000000000000000000000000000000000000000000,0x2000000000000000000000000000000000000000000000,0x800000000000000000000000000c0000000000000000000020000000000000000000000]
  .l)))) [0x4,0x1] (.n (.n (.n (.n (.n .l
  [0x1000000000000000000000000000000000000000000000000000000000000000000000000000000000000000000000000000000000000000000000000000,0x200000000000000000000000000000000000000000000000000000000000000000000000000000000000000000000000000000000000000000,0x8000000000000000000000000000000000000000000000000000000000000000000000000000000000000000000000000000,0x80000000000000000000000000000000000000000000000000000000000000000000000000000000000,0x400000000000000000000000000000004000000000000000000000000000000000000000000000000000000000,0x40000000000000000000000000000000000010000000000000000000000000000,0x200000000010000000000000000000000000000000000002c200000000220000000000101a40000001a000000000000200400001000000000000000000]
  .l)
  [0x8000000000000000000000000000000000000000000,0x400000000000000000000,0x10000000000000,0x4000000,0x40,0x5]
  .l)
  [0x100000000000100005402b880024003f108000220042e08800000430880820404008000ca0000040002440303fffff022480000482c00000040018210600141000000000000000000]
  (.n .l
  [0x1000000000000000000000000000000000000000000000000000000000000000000000000000000000000,0x80000000000000000000000008000000000000000000000000000000000000000000000000000000000,0x400000000000000000000000040000004000000000000000000000000000010000000000000000000000000000]
  .l)) [0x40000000000000,0x20000000,0x2000000000000000000000800000000000004000040] (.n (.n (.n .l
  [0x4000000000000000000000000000000000000000000000000000000000000000000000000000000000000000000000000000000000000000000000000000000000000000000000000000,0x8000000000000000000000000000000000000000000000000000000000000000000000000000000000000000000000000000000000000000000000000000000000000000000000000,0x4000000000000000000000000000000000000000000000000000000000000000000000000000000000000000000000000000000000000000000000000000000000000000000,0x400000000000000000000000000000000000000000000000000000000000000000000000000000000000000000000000000000000000000000000000000000000,0x100000000000000000000000000000000000000000000000000000000000000000000000000000000000000000000000000000000000000000000000,0x4000000000000000000000000000000000000000000000000000000000000000000000000000000000000000000000000000000000000,0x100000000000000000000000000000000000000000000000000000000000000000000000000000000000000000000,0x40000000000000000000000000000000000000000000000000000000000000000000,0x400000000000000000000000000000000000000000,0x100000000000000000000,0x2000000000000,0x80000,0x20005]
  .l)
  [0x4000000000000000000000000000000000000000000000000000000000000000000000000000040000000000000000000000000000000000000000000000000000000000,0x20000000000000000000000000000000000000000000000000000000000000000010000000000000000080000000000010000000000000000000000000000]
  .l)
  [0x1000000801c050a2800120887a000030538440010d400800230500000404020801fbff5e1010000040000988041000000040000001040000000000001000000000000000000000000000,0x100000000000100005402b880024003f108000220042e08800000430880820404008000ca0000040002440303fffff022480000482c00000040018210600141000000000000000000]
  (.n .l
  [0x20000000000000000000000000000000000000000000000000000000000000000000000000000000000000000000000000000000000,0x800000000000000000000000000000000000000000000000000000000000000000000000000000000000000000,0x80000000000000000000000000000000000000000000000000000000000000000,0x20000000001000000000000000000000000000000000000200000000002000000000000018000000018000000000000000000000000000000000000000,0x2000000000000002000000000000000000000000000000000000000000000004000000004000000000000006000014000000000000000000]
  .l))) [0x8000000,0x40,0x5] (.n (.n (.n (.n .l
  [0x2000000000000000000000000000000000000000000000000000000000000000000000000000000000000000000000000000000000000000000000000000000000000,0x800000000000000000000000000000000000000000000000000000000000000000000000000000000000000000000000000000000000000000000000000,0x100000000000000000000000000000000000000000000000000000000000000000000000000000000000000000000000000000000000000000,0x4000000000000000000000000000000000000000000000000000000000000000000000000000000000000000000000000000,0x80000000000000000000000000000000000000000000000000000000000000000000000000000000000,0x400000000000000000000000000000004000000000000000000000000000000000000000000000000000000000,0x40000000000000000000000000000000000010000000000000000000000000000,0x200000000010000000000000000000000000000000000002c200000000220000000000101a40000001a000000000000200400001000000000000000000]
  .l)
  [0x20000000000000000000000000000000000000000000000000000,0x1000000801c050a2800120887a000030538440010d400800230500000404020801fbff5e1010000040000988041000000040000001040000000000001000000000000000000000000000,0x100000000000100005402b880024003f108000220042e08800000430880820404008000ca0000040002440303fffff022480000482c00000040018210600141000000000000000000]
  .l) [0x800000000000000000000000000c0000000000000000000020000000000000000000000] (.n .l
  [0x800000000000000000000000000000000000000000000000000000000000000000000000000000000000000000000,0x100000000000000000000000000000000000000000000000000000000000000000000,0x800000000000000000000000000000000000000000,0x100000000000000000000,0x2000000000000,0x80000,0x20005]
  .l))
  [0x100000000000100005402b880024003f108000220042e08800000430880820404008000ca0000040002440303fffff022480000482c00000040018210600141000000000000000000]
  (.n (.n .l
  [0x400000000000000000000000000000000000000000000000000000000000000000000,0x1000000000000000000000000000000000000000000,0x100000000000000000000,0x2000000000000,0x80000,0x20005]
  .l)
  [0x40000000000000000000000000000000,0x100000000000100005402b880024003f108000220042e08800000430880820404008000ca0000040002440303fffff022480000482c00000040038210600141000000000000000000]
  (.n .l
  [0x1000000000000000000000000000000000000000000000000000000000000000000000000000000000000000000000000000000000000000000,0x40000000000000000000000000000000000000000000000000000000000000000000000000000000000000000000000000000,0x200000000000000000000000000000000000000000000000000000000000000000000000000000000000,0x8000000000000000000000000000000000000000000000000000000000,0x40000000000000000000000000000000000010000000000000000000000000000,0x200000000010000000000000000000000000000000000002c200000000220000000000101a40000001a000000000000200400001000000000000000000]
  .l))))) [0x5] (.n (.n (.n (.n (.n (.n .l
  [0x20000000000000000000000000000000000000000000000000000000000000000000000000000000000000000000000000000000000000000000000000,0x2000000000000000000000000000000000000000000000000000000000000000000000000000000000000000000000000000000000000000,0x2000000000000000000000000000000000000000000000000000000000000000000000000000000000000000000000000,0x4000000000000000000000000000000000000000000000000000000000000000000000000,0x2000000000000000000000000000000000000000000000,0x800000000000000000000000000c0000000000000000000020000000000000000000000]
  .l)
  [0x400000000000000000000000000000000000000000,0x100000000000000000000,0x2000000000000,0x80000,0x20005]
  .l)
  [0x100000000000100005402b880024003f108000220042e08800000430880820404008000ca0000040002440303fffff022480000482c00000040018210600141000000000000000000]
  (.n .l
  [0x40000000000000000000000000000000000000000000000000000000000000000000000000000000000,0x1000000000000000000000000000000000000000000000000000000000,0x8000000000000000000000000000,0x100000000000100005402b880024003f108000220042e08800000430880820404008000ca0000040002440303fffff022480000482c00000040018210600141000000000000000000]
  .l)) [0x10000100000000000,0x4000004000,0x205] (.n (.n (.n .l
  [0x4000000000000000000000000000000000000000000000000000000000000000000000000000000000000000000000000000000000000000000000000000000000000000000000000,0x2000000000000000000000000000000000000000000000000000000000000000000000000000000000000000000000000000000000000000000000000000000000000000000,0x200000000000000000000000000000000000000000000000000000000000000000000000000000000000000000000000000000000000000000000000000000000,0x80000000000000000000000000000000000000000000000000000000000000000000000000000000000000000000000000000000000000000000000,0x2000000000000000000000000000000000000000000000000000000000000000000000000000000000000000000000000000000000000,0x80000000000000000000000000000000000000000000000000000000000000000000000000000000000000000000,0x20000000000000000000000000000000000000000000000000000000000000000000,0x400000000000000000000000000000000000000000,0x100000000000000000000,0x2000000000000,0x80000,0x20005]
  .l)
  [0x8000000000000000000000000000000000000000000000000000000000,0x40000000000000000000000000000000000010000000000000000000000000000,0x200000000010000000000000000000000000000000000002c200000000220000000000101a40000001a000000000000200400001000000000000000000]
  .l)
  [0x1000000801c050a2800120887a000030538440010d400800230500000404020801fbff5e1010000040000988041000000040000001040000000000001000000000000000000000000000,0x100000000000100005402b880024003f108000220042e08800000430880820404008000ca0000040002440303fffff022480000482c00000040018210600141000000000000000000]
  (.n .l
  [0x800000000000000000000000000000000000000000000000000000000000000000000000000000000000000000000000000000,0x8000000000000000000000000000000000000000000000000000000000000000000000000000000000000,0x2000000000000000000000000020000000000000000000000000000000000000000000000000000000000,0x20000000000000000000000000000000000000000000000000000000000000000010000000000000000080000000000010000000000000000000000000000]
  .l))) [0x8000,0x5] (.n (.n (.n (.n .l
  [0x2000000000000000000000000000000000000000000000000000000000000000000000000000000000000000000000000000000000000000000000000000000000,0x800000000000000000000000000000000000000000000000000000000000000000000000000000000000000000000000000000000000000000000000,0x20000000000000000000000000000000000000000000000000000000000000000000000000000000000000000000000000000000000000,0x800000000000000000000000000000000000000000000000000000000000000000000000000000000000000000000,0x100000000000000000000000000000000000000000000000000000000000000000000,0x800000000000000000000000000000000000000000,0x100000000000000000000,0x2000000000000,0x80000,0x20005]
  .l)
  [0x200000000000000000000000000000000000000000000000000,0x100000000000000000000000000,0x400000000000000000,0x10000000000900000000000000010000000000000004000000000000000000000000400000000300000000000000000000000406800070000000000]
  .l) [0x10000000000000000000000,0x200000000000000,0x80000000,0x80,0x5] (.n .l
  [0x8000000000000000000000000000000000000000000000000000000000000000000000000000000000000000000,0x8000000000000000000000000000000000000000000000000000000000000000000,0x100000000000000000000000000000000000000000,0x80000000000000000000,0x800000000000,0x8000010000,0x205]
  .l))
  [0x40000000000000000000001000400000000000000000000200400001000000000000000000,0x800000000000000000000400800000802000020000000000]
  (.n (.n .l
  [0x8000000000000000000000000000000000000000000000000000000000000000000,0x100000000000000000000000000000000000000000,0x80000000000000000000,0x800000000000,0x8000010000,0x205]
  .l)
  [0x20000000000000000000000000000,0x100000000000100005402b880024003f108000220042e08800000430880820404008000ca0000040002440303fffff022480000482c00000040018210600141000000000000000000]
  (.n .l
  [0x400000000000000000000000000000000000000000000000000000000000000000000000000000000000000000000000000000000000000000,0x10000000000000000000000000000000000000000000000000000000000000000000000000000000000000000000000000000,0x80000000000000000000000000000000000000000000000000000000000000000000000000000000000,0x400000000000000000000000000000004000000000000000000000000000000000000000000000000000000000,0x40000000000000000000000000000000000010000000000000000000000000000,0x200000000010000000000000000000000000000000000002c200000000220000000000101a40000001a000000000000200400001000000000000000000]
  .l)))) [0x2000000000000000000000800000000000004000040] (.n (.n (.n (.n (.n .l
  [0x10000000000000000000000000000000000000000000000000000000000000000000000000000000000000000000000000000000000000000000000000000,0x800000000000000000000000000000000000000000000000000000000000000000000000000000000000000000000000000000000000000000,0x20000000000000000000000000000000000000000000000000000000000000000000000000000000000000000000000000000,0x100000000000000000000000000000000000000000000000000000000000000000000000000000000000,0x8000000000000000000000000000000000000000000000000000000000,0x40000000000000000000000000000000000010000000000000000000000000000,0x200000000010000000000000000000000000000000000002c200000000220000000000101a40000001a000000000000200400001000000000000000000]
  .l)
  [0x200000000000000000000000000000000000000000000,0x80000000000000000000020000000000000000000000]
  .l) [0x2000000000000000000,0x40000000000,0x1000,0x5] (.n .l
  [0x200000000000000000000000000000000000000000000000000000000000000000000000000000000000000,0x4000000000000000000000000000000000000000000000000000000000000,0x40000000000000000000000000000000,0x100000000000100005402b880024003f108000220042e08800000430880820404008000ca0000040002440303fffff022480000482c00000040038210600141000000000000000000]
  .l)) [0x1000000000000000,0x400000000,0x200,0x5] (.n (.n (.n .l
  [0x400000000000000000000000000000000000000000000000000000000000000000000000000000000000000000000000000000000000000000000000000000000000000000000000000000,0x8000000000000000000000000000000000000000000000000000000000000000000000000000000000000000000000000000000000000000000000000000000000000000000000000000,0x10000000000000000000000000000000000000000000000000000000000000000000000000000000000000000000000000000000000000000000000000000000000000000000000000,0x8000000000000000000000000000000000000000000000000000000000000000000000000000000000000000000000000000000000000000000000000000000000000000000,0x800000000000000000000000000000000000000000000000000000000000000000000000000000000000000000000000000000000000000000000000000000000,0x200000000000000000000000000000000000000000000000000000000000000000000000000000000000000000000000000000000000000000000000,0x8000000000000000000000000000000000000000000000000000000000000000000000000000000000000000000000000000000000000,0x200000000000000000000000000000000000000000000000000000000000000000000000000000000000000000000,0x40000000000000000000000000000000000000000000000000000000000000000000,0x400000000000000000000000000000000000000000,0x100000000000000000000,0x2000000000000,0x80000,0x20005]
  .l)
  [0x8000000000000000000000000000000000000000000000000000000000000,0x40000000000000000000000000000000,0x100000000000100005402b880024003f108000220042e08800000430880820404008000ca0000040002440303fffff022480000482c00000040038210600141000000000000000000]
  .l)
  [0x1000000801c050a2800120887a000030538440010d400800230500000404020801fbff5e1010000040000988041000000040000001040000000000001000000000000000000000000000,0x100000000000100005402b880024003f108000220042e08800000430880820404008000ca0000040002440303fffff022480000482c00000040018210600141000000000000000000]
  (.n .l
  [0x8000000000000000000000000000000000000000000000000000000000000000000000000000000000000000000000000000000000000,0x200000000000000000000000000000000000000000000000000000000000000000000000000000000000000000000,0x40000000000000000000000000000000000000000000000000000000000000000000,0x400000000000000000000000000000000000000000,0x100000000000000000000,0x2000000000000,0x80000,0x20005]
  .l))) [0x800000000,0x200,0x5] (.n (.n (.n (.n .l
  [0x800000000000000000000000000000000000000000000000000000000000000000000000000000000000000000000000000000000000000000000000000000000000000,0x4000000000000000000000000000000000000000000000000000000000000000000000000000000000000000000000000000000000000000000000000000,0x800000000000000000000000000000000000000000000000000000000000000000000000000000000000000000000000000000000000000000,0x20000000000000000000000000000000000000000000000000000000000000000000000000000000000000000000000000000,0x100000000000000000000000000000000000000000000000000000000000000000000000000000000000,0x8000000000000000000000000000000000000000000000000000000000,0x40000000000000000000000000000000000010000000000000000000000000000,0x200000000010000000000000000000000000000000000002c200000000220000000000101a40000001a000000000000200400001000000000000000000]
  .l)
  [0x800000000000000000000000000000000000000000000000000000,0x1000000801c050a28001208842000030500440010d400800230500000404020801fbff5e1010000040000988041000000040000001040000000000001000000000000000000000000000,0x100000000000100005402b8800240038108000220042008800000430880820404008000ca0000040002440303fffff022480000482c00000040018210600141000000000000000000]
  .l) [0x400000000000000000000000,0x2000000000000000,0x800000000,0x200,0x5] (.n .l
  [0x2000000000000000000000000000000000000000000000000000000000000000000000000000000000000000000000000,0x4000000000000000000000000000000000000000000000000000000000000000000000000,0x2000000000000000000000000000000000000000000000,0x800000000000000000000000000c0000000000000000000020000000000000000000000]
  .l))
  [0x100000000000100005402b880024003f108000220042e08800000430880820404008000ca0000040002440303fffff022480000482c00000040018210600141000000000000000000]
  (.n (.n .l
  [0x800000000000000000000000000000000000000000000000000000000000000000000000,0x10000000000000000000000000200000000000000000000000000000000000000000000,0x800000000000000000000000000c0000000000000000000020000000000000000000000]
  .l) [0x4000000000000000000000000000000000000000,0x4000000000000000000,0x80000000000,0x2000,0x5]
  (.n .l
  [0x4000000000000000000000000000000000000000000000000000000000000000000000000000000000000000000000000000000000000000000000,0x40000000000000000000000000000000000000000000000000000000000000000000000000000000000000000000000000000000000,0x1000000000000000000000000000000000000000000000000000000000000000000000000000000000000000000,0x100000000000000000000000000000000000000000000000000000000000000000,0x20000000001000000000000000000000000000000000000200000000002000000000000018000000018000000000000000000000000000000000000000,0x2000000000000002000000000000000000000000000000000000000000000004000000004000000000000006000014000000000000000000]
  .l)))))))) [] (.n (.n (.n (.n (.n (.n (.n (.n (.n .l
  [0x20000000000000000000000000000000000000000000000000000000000000000000000000000000000000000000000000000000000000000000000,0x400000000000000000000000000000000000000000000000000000000000000000000000000000000000000000000000000000000000,0x10000000000000000000000000000000000000000000000000000000000000000000000000000000000000000000,0x8000000000000000000000000000000000000000000000000000000000000000000,0x100000000000000000000000000000000000000000,0x80000000000000000000,0x800000000000,0x8000010000,0x205]
  .l)
  [0x200000000002000000000000008000000008000000000000000000000000000000000000000,0x4000000004000000000000002000004000000000000000000]
  .l)
  [0x100000000000100005402b880024003f108000220042e08800000430880820404008000ca0000040002440303fffff022480000482c00000040018210600141000000000000000000]
  (.n .l
  [0x2000000000000000000000000000000000000000000000000000000000000000000000000,0x1000000000000000000000000000000000000000000000,0x800000000000000000000008800000000000000000000000000c0000000000000000000020000000000000000000000]
  .l)) [0x4000000000,0x200,0x5] (.n (.n (.n .l
  [0x200000000000000000000000000000000000000000000000000000000000000000000000000000000000000000000000000000000000000000000000000000000000000000,0x2000000000000000000000000000000000000000000000000000000000000000000000000000000000000000000000000000000000000000000000000000000,0x4000000000000000000000000000000000000000000000000000000000000000000000000000000000000000000000000000000000000000000,0x100000000000000000000000000000000000000000000000000000000000000000000000000000000000000000000000000000,0x800000000000000000000000000000000000000000000000000000000000000000000000000000000000,0x80000000000000000000000008000000000000000000000000000000000000000000000000000000000,0x400000000000000000000000040000004000000000000000000000000000010000000000000000000000000000]
  .l)
  [0x4000000000000000000000000000000000000000000000000000000,0x1000000801c050a2800120887a000030538440010d400800230500000404020801fbff5e1010000040000988041000000040000001040000000000001000000000000000000000000000,0x100000000000100005402b880024003f108000220042e08800000430880820404008000ca0000040002440303fffff022480000482c00000040018210600141000000000000000000]
  .l) [0x1000000000000000000000000,0x4000000000000000,0x1000000000,0x200,0x5] (.n .l
  [0x4000000000000080000000000000000000000000000000000000000000000000000000000000000000000000000000000000000000000000]
  .l))) [0x100,0x5] (.n (.n (.n (.n .l
  [0x80000000000000000000000000000000000000000000000000000000000000000000000000000000000000000000000000000000000000000000000000000,0x1000000000000000000000000000000000000000000000000000000000000000000000000000000000000000000000000000000000000000000,0x40000000000000000000000000000000000000000000000000000000000000000000000000000000000000000000000000000,0x200000000000000000000000000000000000000000000000000000000000000000000000000000000000,0x8000000000000000000000000000000000000000000000000000000000,0x40000000000000000000000000000000000010000000000000000000000000000,0x200000000010000000000000000000000000000000000002c200000000220000000000101a40000001a000000000000200400001000000000000000000]
  .l)
  [0x400000000000000000000000000000000000000000000,0x80000000000000000000020000000000000000000000]
  .l) [0x10000000000000000000,0x100000000000,0x4000,0x5] (.n .l
  [0x400000000000000000000000000000000000000000000000000000000000000000000000000000000000000,0x4000000000000000000000000000000000000000000000000000000000000,0x40000000000000000000000000000000,0x100000000000100005402b880024003f108000220042e08800000430880820404008000ca0000040002440303fffff022480000482c00000040038210600141000000000000000000]
  .l)) [0x4000000000000000,0x1000000000,0x200,0x5] (.n (.n (.n .l
  [0x2000000000000000000000000000000000000000000000000000000000000000000000000000000000000000000000000000000000000000000000000000000000000000000000000000000,0x40000000000000000000000000000000000000000000000000000000000000000000000000000000000000000000000000000000000000000000000000000000000000000000000000000,0x80000000000000000000000000000000000000000000000000000000000000000000000000000000000000000000000000000000000000000000000000000000000000000000000000,0x40000000000000000000000000000000000000000000000000000000000000000000000000000000000000000000000000000000000000000000000000000000000000000000,0x4000000000000000000000000000000000000000000000000000000000000000000000000000000000000000000000000000000000000000000000000000000000,0x1000000000000000000000000000000000000000000000000000000000000000000000000000000000000000000000000000000000000000000000000,0x40000000000000000000000000000000000000000000000000000000000000000000000000000000000000000000000000000000000000,0x1000000000000000000000000000000000000000000000000000000000000000000000000000000000000000000000,0x200000000000000000000000000000000000000000000000000000000000000000000,0x1000000000000000000000000000000000000000000,0x100000000000000000000,0x2000000000000,0x80000,0x20005]
  .l)
  [0x10000000000000000000000000000000000000000000000000000000000000,0x40000000000000000000000000000000,0x100000000000100005402b880024003f108000220042e08800000430880820404008000ca0000040002440303fffff022480000482c00000040038210600141000000000000000000]
  .l)
  [0x1000000801c050a2800120887a000030538440010d400800230500000404020801fbff5e1010000040000988041000000040000001040000000000001000000000000000000000000000,0x100000000000100005402b880024003f108000220042e08800000430880820404008000ca0000040002440303fffff022480000482c00000040018210600141000000000000000000]
  (.n .l
  [0x40000000000000000000000000000000000000000000000000000000000000000000000000000000000000000000000000000000000000,0x1000000000000000000000000000000000000000000000000000000000000000000000000000000000000000000000,0x200000000000000000000000000000000000000000000000000000000000000000000,0x1000000000000000000000000000000000000000000,0x100000000000000000000,0x2000000000000,0x80000,0x20005]
  .l)))) [0x5] (.n (.n (.n (.n (.n .l
  [0x400000000000000000000000000000000000000000000000000000000000000000000000000000000000000000000000000000000000000000000000000,0x80000000000000000000000000000000000000000000000000000000000000000000000000000000000000000000000000000000000000000,0x2000000000000000000000000000000000000000000000000000000000000000000000000000000000000000000000000000,0x40000000000000000000000000000000000000000000000000000000000000000000000000000000000,0x1000000000000000000000000000000000000000000000000000000000,0x8000000000000000000000000000,0x100000000000100005402b880024003f108000220042e08800000430880820404008000ca0000040002440303fffff022480000482c00000040018210600141000000000000000000]
  .l)
  [0x800000000000000000000000000000000000000000,0x100000000000000000000,0x2000000000000,0x80000,0x20005]
  .l)
  [0x100000000000100005402b880024003f108000220042e08800000430880820404008000ca0000040002440303fffff022480000482c00000040018210600141000000000000000000]
  (.n .l
  [0x80000000000000000000000000000000000000000000000000000000000000000000000000000000000,0x400000000000000000000000000000004000000000000000000000000000000000000000000000000000000000,0x40000000000000000000000000000000000010000000000000000000000000000,0x200000000010000000000000000000000000000000000002c200000000220000000000101a40000001a000000000000200400001000000000000000000]
  .l)) [0x2000000000000,0x80000,0x20005] (.n (.n (.n .l
  [0x20000000000000000000000000000000000000000000000000000000000000000000000000000000000000000000000000000000000000000000000000000000000000000000000000,0x10000000000000000000000000000000000000000000000000000000000000000000000000000000000000000000000000000000000000000000000000000000000000000000,0x1000000000000000000000000000000000000000000000000000000000000000000000000000000000000000000000000000000000000000000000000000000000,0x400000000000000000000000000000000000000000000000000000000000000000000000000000000000000000000000000000000000000000000000,0x10000000000000000000000000000000000000000000000000000000000000000000000000000000000000000000000000000000000000,0x400000000000000000000000000000000000000000000000000000000000000000000000000000000000000000000,0x80000000000000000000000000000000000000000000000000000000000000000000,0x400000000000000000000000000000000000000000,0x100000000000000000000,0x2000000000000,0x80000,0x20005]
  .l)
  [0x80000000000000000000000008000000000000000000000000000000000000000000000000000000000,0x400000000000000000000000040000004000000000000000000000000000010000000000000000000000000000]
  .l)
  [0x1000000801c050a2800120887a000030538440010d400800230500000404020801fbff5e1010000040000988041000000040000001040000000000001000000000000000000000000000,0x100000000000100005402b880024003f108000220042e08800000430880820404008000ca0000040002440303fffff022480000482c00000040018210600141000000000000000000]
  (.n .l
  [0x10000000000000000000000000000000000000000000000000000000000000000000000000000000000000000000000000000000,0x200000000000000000000000000000000000000000000000000000000000000000000000000000000000000,0x4000000000000000000000000000000000000000000000000000000000000,0x40000000000000000000000000000000,0x100000000000100005402b880024003f108000220042e08800000430880820404008000ca0000040002440303fffff022480000482c00000040038210600141000000000000000000]
  .l))) [0x20000,0x5] (.n (.n (.n (.n .l
  [0x80000000000000000000000000000000000000000000000000000000000000000000000000000000000000000000000000000000000000000000000000000000000,0x20000000000000000000000000000000000000000000000000000000000000000000000000000000000000000000000000000000000000000000000000,0x2000000000000000000000000000000000000000000000000000000000000000000000000000000000000000000000000000000000000000,0x2000000000000000000000000000000000000000000000000000000000000000000000000000000000000000000000000,0x4000000000000000000000000000000000000000000000000000000000000000000000000,0x2000000000000000000000000000000000000000000000,0x800000000000000000000000000c0000000000000000000020000000000000000000000]
  .l)
  [0x1000000000000000000000000000000000000000000000000000,0x400000000000000000000000000,0x800000000000000000,0x20000000000,0x800,0x5]
  .l)
  [0x20000000000000000000000,0x100000000000100005402b8a0024003f118000220042e08800000430880820404008002ca0000040022440303fffff03a48000049ac00000040018210600141000200000000000000]
  (.n .l
  [0x40000000000000000000000000000000000000000000000000000000000000000000000000000000000000000000,0x10000000000000000000000000000000000000000000000000000000000000000000,0x200000000000000000000000000000000000000000,0x80000000000000000000,0x800000000000,0x8000010000,0x205]
  .l)) [0xc2000000000200000000001002400000002000000000000200400001000000000000000000] (.n (.n .l
  [0x40000000000000000000000000000000000000000000000000000000000000000000,0x400000000000000000000000000000000000000000,0x100000000000000000000,0x2000000000000,0x80000,0x20005]
  .l)
  [0x20000000000000000000000000000,0x100000000000100005402b880024003f108000220042e08800000430880820404008000ca0000040002440303fffff022480000482c00000040018210600141000000000000000000]
  (.n .l
  [0x800000000000000000000000000000000000000000000000000000000000000000000000000000000000000000000000000000000000000000,0x20000000000000000000000000000000000000000000000000000000000000000000000000000000000000000000000000000,0x100000000000000000000000000000000000000000000000000000000000000000000000000000000000,0x8000000000000000000000000000000000000000000000000000000000,0x40000000000000000000000000000000000010000000000000000000000000000,0x200000000010000000000000000000000000000000000002c200000000220000000000101a40000001a000000000000200400001000000000000000000]
  .l))))) [0x5] (.n (.n (.n (.n (.n (.n .l
  [0x4000000000000000000000000000000000000000000000000000000000000000000000000000000000000000000000000000000000000000000000000,0x1000000000000000000000000000000000000000000000000000000000000000000000000000000000000000000000000000000000000000,0x2000000000000000000000000000000000000000000000000000000000000000000000000000000000000000000000000,0x4000000000000000000000000000000000000000000000000000000000000000000000000,0x2000000000000000000000000000000000000000000000,0x800000000000000000000000000c0000000000000000000020000000000000000000000]
  .l)
  [0x10000000010000000000000000000000000000000000000000,0x4000010000000000000000000,0x10000100000000000,0x4000004000,0x205]
  .l)
  [0x100000000000100005402b880024003f108000220042e08800000430880820404008000ca0000040002440303fffff022480000482c00000040018210600141000000000000000000]
  (.n .l
  [0x800000000000000000000000000000000000000000000000000000000000000000000000000000,0x20000000000000000000000000000000000000000000000000000,0x1000000801c050a2800120887a000030538440010d400800230500000404020801fbff5e1010000040000988041000000040000001040000000000001000000000000000000000000000,0x100000000000100005402b880024003f108000220042e08800000430880820404008000ca0000040002440303fffff022480000482c00000040018210600141000000000000000000]
  .l)) [0x20000000000,0x800,0x5] (.n (.n (.n .l
  [0x80000000000000000000000000000000000000000000000000000000000000000000000000000000000000000000000000000000000000000000000000000000000000000000,0x8000000000000000000000000000000000000000000000000000000000000000000000000000000000000000000000000000000000000000000000000000000000,0x2000000000000000000000000000000000000000000000000000000000000000000000000000000000000000000000000000000000000000000000000,0x80000000000000000000000000000000000000000000000000000000000000000000000000000000000000000000000000000000000000,0x2000000000000000000000000000000000000000000000000000000000000000000000000000000000000000000000,0x400000000000000000000000000000000000000000000000000000000000000000000,0x1000000000000000000000000000000000000000000,0x100000000000000000000,0x2000000000000,0x80000,0x20005]
  .l)
  [0x200000000000000000000000000000000000000000000000000000000,0x1000000801c050a2800120887a000030538440010d400800230500000404020801fbff5e1010000040000988041000000040000001040000000000001000000000000000000000000000,0x100000000000100005402b880024003f108000220042e08800000430880820404008000ca0000040002440303fffff022480000482c00000040018210600141000000000000000000]
  .l) [0x80000000000000000000000000,0x20000000080000000000000000] (.n .l
  [0x40000000000000000000000000000000000000000000000000000000000000000000000000000000000000000000000000000,0x200000000000000000000000000000000000000000000000000000000000000000000000000000000000,0x8000000000000000000000000000000000000000000000000000000000,0x40000000000000000000000000000000000010000000000000000000000000000,0x200000000010000000000000000000000000000000000002c200000000220000000000101a40000001a000000000000200400001000000000000000000]
  .l))) [0x400,0x5] (.n (.n (.n (.n .l
  [0x40000000000000000000000000000000000000000000000000000000000000000000000000000000000000000000000000000000000000000000000000000000,0x8000000000000000000000000000000000000000000000000000000000000000000000000000000000000000000000000000000000000000000000,0x100000000000000000000000000000000000000000000000000000000000000000000000000000000000000000000000000000000000,0x8000000000000000000000000000000000000000000000000000000000000000000000000000000000000000000,0x8000000000000000000000000000000000000000000000000000000000000000000,0x100000000000000000000000000000000000000000,0x80000000000000000000,0x800000000000,0x8000010000,0x205]
  .l)
  [0x2000000000000000000000000000000000000000000000000,0x1000000000000000000000000,0x4000000000000000,0x1000000000,0x200,0x5]
  .l) [0x100000000000000000000,0x2000000000000,0x80000,0x20005] (.n .l
  [0x80000000000000000000000000000000000000000000000000000000000000000000000000000000000000000,0x40000000000000000000000000000000000000000000000000000000000000,0x20000000000000000000000000c000000000000000000000000000040000000000000000000000000000000]
  .l))
  [0x400000000000000000,0x10000000000900000000000000010000000000000004000000000000000000000000400000000300000000000000000000000406800070000000000]
  (.n (.n (.n .l
  [0x400000000000000000000000000000000000000000000000000000000000000000000000000000000000000000000000000000000000000000000000000000000000000000000000000000000,0x8000000000000000000000000000000000000000000000000000000000000000000000000000000000000000000000000000000000000000000000000000000000000000000000000000000,0x100000000000000000000000000000000000000000000000000000000000000000000000000000000000000000000000000000000000000000000000000000000000000000000000000000,0x2000000000000000000000000000000000000000000000000000000000000000000000000000000000000000000000000000000000000000000000000000000000000000000000000000,0x4000000000000000000000000000000000000000000000000000000000000000000000000000000000000000000000000000000000000000000000000000000000000000000000000,0x2000000000000000000000000000000000000000000000000000000000000000000000000000000000000000000000000000000000000000000000000000000000000000000,0x200000000000000000000000000000000000000000000000000000000000000000000000000000000000000000000000000000000000000000000000000000000,0x80000000000000000000000000000000000000000000000000000000000000000000000000000000000000000000000000000000000000000000000,0x2000000000000000000000000000000000000000000000000000000000000000000000000000000000000000000000000000000000000,0x80000000000000000000000000000000000000000000000000000000000000000000000000000000000000000000,0x20000000000000000000000000000000000000000000000000000000000000000000,0x400000000000000000000000000000000000000000,0x100000000000000000000,0x2000000000000,0x80000,0x20005]
  .l)
  [0x100000000000000000000000000000000000000000000000000000000000000000,0x20000000001000000000000000000000000000000000000200000000002000000000000018000000018000000000000000000000000000000000000000,0x2000000000000002000000000000000000000000000000000000000000000004000000004000000000000006000014000000000000000000]
  .l)
  [0x20000000000000000000000000000000000000000000000000000000000000000000000000000000000080000000000010000000000000000000000000000,0x100000000000100005402b880024003f108000220042e08800000430880820404008000ca0000040002440303fffff022480000482c00000040018210600141000000000000000000]
  (.n .l
  [0x8000000000000000000000000000000000000000000000000000000000000000000000000000000000000000000000000000000000000000,0x80000000000000000000000000000000000000000000000000000000000000000000000000000000000000000000000000,0x200000000000000000000000000000000000000000000000000000000000000000000000000000,0x20000000000000000000000000000000000000000000000000000,0x1000000801c050a2800120887a000030538440010d400800230500000404020801fbff5e1010000040000988041000000040000001040000000000001000000000000000000000000000,0x100000000000100005402b880024003f108000220042e08800000430880820404008000ca0000040002440303fffff022480000482c00000040018210600141000000000000000000]
  .l)))) [0x20,0x5] (.n (.n (.n (.n (.n .l
  [0x2000000000000000000000000000000000000000000000000000000000000000000000000000000000000000000000000000000000000000000000000000,0x400000000000000000000000000000000000000000000000000000000000000000000000000000000000000000000000000000000000000000,0x10000000000000000000000000000000000000000000000000000000000000000000000000000000000000000000000000000,0x80000000000000000000000000000000000000000000000000000000000000000000000000000000000,0x400000000000000000000000000000004000000000000000000000000000000000000000000000000000000000,0x40000000000000000000000000000000000010000000000000000000000000000,0x200000000010000000000000000000000000000000000002c200000000220000000000101a40000001a000000000000200400001000000000000000000]
  .l)
  [0x80000000000000000000000000040000000000000000000000000000000000000000000,0x80000000000000000000020000000000000000000000]
  .l)
  [0x100000000000100005402b880024003f108000220042e08800000430880820404008000ca0000040002440303fffff022480000482c00000040018210600141000000000000000000]
  (.n .l
  [0x8000000000000000000000000000000000000000000000000000000000000000000000000000000000000,0x2000000000000000000000000020000000000000000000000000000000000000000000000000000000000,0x20000000000000000000000000000000000000000000000000000000000000000010000000000000000080000000000010000000000000000000000000000]
  .l)) [0x200000000000000,0x80000000,0x80,0x5] (.n (.n (.n .l
  [0x20000000000000000000000000000000000000000000000000000000000000000000000000000000000000000000000000000000000000000000000000000000000000000000000000000,0x40000000000000000000000000000000000000000000000000000000000000000000000000000000000000000000000000000000000000000000000000000000000000000000000000,0x20000000000000000000000000000000000000000000000000000000000000000000000000000000000000000000000000000000000000000000000000000000000000000000,0x2000000000000000000000000000000000000000000000000000000000000000000000000000000000000000000000000000000000000000000000000000000000,0x800000000000000000000000000000000000000000000000000000000000000000000000000000000000000000000000000000000000000000000000,0x20000000000000000000000000000000000000000000000000000000000000000000000000000000000000000000000000000000000000,0x800000000000000000000000000000000000000000000000000000000000000000000000000000000000000000000,0x100000000000000000000000000000000000000000000000000000000000000000000,0x800000000000000000000000000000000000000000,0x100000000000000000000,0x2000000000000,0x80000,0x20005]
  .l)
  [0x4000000000000000000000000000000000000000000000000000000000000,0x40000000000000000000000000000000,0x100000000000100005402b880024003f108000220042e08800000430880820404008000ca0000040002440303fffff022480000482c00000040038210600141000000000000000000]
  .l)
  [0x1000000801c050a2800120887a000030538440010d400800230500000404020801fbff5e1010000040000988041000000040000001040000000000001000000000000000000000000000,0x100000000000100005402b880024003f108000220042e08800000430880820404008000ca0000040002440303fffff022480000482c00000040018210600141000000000000000000]
  (.n .l
  [0x200000000000000000000000000000000000000000000000000000000000000000000000000000000000000000000000000000000000,0x8000000000000000000000000000000000000000000000000000000000000000000000000000000000000000000,0x8000000000000000000000000000000000000000000000000000000000000000000,0x100000000000000000000000000000000000000000,0x80000000000000000000,0x800000000000,0x8000010000,0x205]
  .l))) [0x80000000,0x80,0x5] (.n (.n (.n (.n .l
  [0x20000000000000000000000000000000000000000000000000000000000000000000000000000000000000000000000000000000000000000000000000000000000000,0x1000000000000000000000000000000000000000000000000000000000000000000000000000000000000000000000000000000000000000000000000000,0x200000000000000000000000000000000000000000000000000000000000000000000000000000000000000000000000000000000000000000,0x8000000000000000000000000000000000000000000000000000000000000000000000000000000000000000000000000000,0x80000000000000000000000000000000000000000000000000000000000000000000000000000000000,0x400000000000000000000000000000004000000000000000000000000000000000000000000000000000000000,0x40000000000000000000000000000000000010000000000000000000000000000,0x200000000010000000000000000000000000000000000002c200000000220000000000101a40000001a000000000000200400001000000000000000000]
  .l)
  [0x40000000000000000000000000000000000000000000000000000,0x1000000801c050a2800120887a000030538440010d400800230500000404020801fbff5e1010000040000988041000000040000001040000000000001000000000000000000000000000,0x100000000000100005402b880024003f108000220042e08800000430880820404008000ca0000040002440303fffff022480000482c00000040018210600141000000000000000000]
  .l)
  [0x800000000000000000000008800000000000000000000000000c0000000000000000000020000000000000000000000]
  (.n .l
  [0x8000000000000000000000000000000000000000000000000000000000000000000000000000000000000000000000,0x10000000000000000000000000000000000000000000000000000000000000000000000,0x80000000000000000000000000040000000000000000000000000000000000000000000,0x80000000000000000000020000000000000000000000]
  .l))
  [0x100000000000100005402b880024003f108000220042e08800000430880820404008000ca0000040002440303fffff022480000482c00000040018210600141000000000000000000]
  (.n (.n .l
  [0x10000000000000000000000000000000000000000000000000000000000000000000000,0x80000000000000000000000000040000000000000000000000000000000000000000000,0x80000000000000000000020000000000000000000000]
  .l)
  [0x800000000000000000000000000000000000000,0x10000000000010000540280800240007108000220042e08800000430880820404008000ca0000040002440303fffff022480000482c00000040018210600141000000000000000000]
  (.n .l
  [0x2000000000000000000000000000000000000000000000000000000000000000000000000000000000000000000000000000000000000000000,0x80000000000000000000000000000000000000000000000000000000000000000000000000000000000000000000000000000,0x400000000000000000000000000000000000000000000000000000000000000000000000000000000000,0x8000000000000000000000000000000000000000000000000000000000,0x40000000000000000000000000000000000010000000000000000000000000000,0x200000000010000000000000000000000000000000000002c200000000220000000000101a40000001a000000000000200400001000000000000000000]
  .l)))))) [0x1] (.n (.n (.n (.n (.n (.n (.n .l
  [0x400000000000000000000000000000000000000000000000000000000000000000000000000000000000000000000000000000000000000000000000,0x10000000000000000000000000000000000000000000000000000000000000000000000000000000000000000000000000000000000000,0x400000000000000000000000000000000000000000000000000000000000000000000000000000000000000000000,0x80000000000000000000000000000000000000000000000000000000000000000000,0x400000000000000000000000000000000000000000,0x100000000000000000000,0x2000000000000,0x80000,0x20005]
  .l)
  [0x20000000001000000000000000000000000000000000000200000000002000000000000018000000018000000000000000000000000000000000000000,0x2000000000000002000000000000000000000000000000000000000000000004000000004000000000000006000014000000000000000000]
  .l)
  [0x100000000000100005402b880024003f108000220042e08800000430880820404008000ca0000040002440303fffff022480000482c00000040018210600141000000000000000000]
  (.n .l
  [0x80000000000000000000000000000000000000000000000000000000000000000000000000,0x1000000000000000000000000000000000000000000000000,0x1000000000000000000000000,0x4000000000000000,0x1000000000,0x200,0x5]
  .l))
  [0x10000000000900000000000000010000000000000004000000000000000000000000400000000300000000000000000000000406800070000000000]
  (.n (.n (.n .l
  [0x8000000000000000000000000000000000000000000000000000000000000000000000000000000000000000000000000000000000000000000000000000000000000000000,0x800000000000000000000000000000000000000000000000000000000000000000000000000000000000000000000000000000000000000000000000000000000,0x200000000000000000000000000000000000000000000000000000000000000000000000000000000000000000000000000000000000000000000000,0x8000000000000000000000000000000000000000000000000000000000000000000000000000000000000000000000000000000000000,0x200000000000000000000000000000000000000000000000000000000000000000000000000000000000000000000,0x40000000000000000000000000000000000000000000000000000000000000000000,0x400000000000000000000000000000000000000000,0x100000000000000000000,0x2000000000000,0x80000,0x20005]
  .l)
  [0x20000000000000000000000000000000000000000000000000000000,0x1000000801c050a2800120887a000030538440010d400800230500000404020801fbff5e1010000040000988041000000040000001040000000000001000000000000000000000000000,0x100000000000100005402b880024003f108000220042e08800000430880820404008000ca0000040002440303fffff022480000482c00000040018210600141000000000000000000]
  .l) [0x4000000000000000000000000,0x10000000000000000,0x4000000000,0x200,0x5] (.n .l
  [0x4000000000000000000000000000000000000000000000000000000000000000000000000000000000000000000000000000,0x80000000000000000000000000000000000000000000000000000000000000000000000000000000000,0x400000000000000000000000000000004000000000000000000000000000000000000000000000000000000000,0x40000000000000000000000000000000000010000000000000000000000000000,0x200000000010000000000000000000000000000000000002c200000000220000000000101a40000001a000000000000200400001000000000000000000]
  .l))) [0x200,0x5] (.n (.n (.n (.n .l
  [0x1000000000000000000000000000000000000000000000000000000000000000000000000000000000000000000000000000000000000000000000000000000,0x2000000000000000000000000000000000000000000000000000000000000000000000000000000000000000000000000000000000000000000,0x80000000000000000000000000000000000000000000000000000000000000000000000000000000000000000000000000000,0x400000000000000000000000000000000000000000000000000000000000000000000000000000000000,0x8000000000000000000000000000000000000000000000000000000000,0x40000000000000000000000000000000000010000000000000000000000000000,0x200000000010000000000000000000000000000000000002c200000000220000000000101a40000001a000000000000200400001000000000000000000]
  .l)
  [0x80000000000000000000000000000000000000000000000,0x100000000000000000000000,0x800000000000000,0x200000000,0x200,0x5]
  .l) [0x80000000000000000000,0x800000000000,0x8000010000,0x205] (.n .l
  [0x4000000000000000000000000000000000000000000000000000000000000000000000000000000000000000,0x8000000000000000000000000000000000000000000000000000000000000,0x40000000000000000000000000000000,0x100000000000100005402b880024003f108000220042e08800000430880820404008000ca0000040002440303fffff022480000482c00000040038210600141000000000000000000]
  .l)) [0x40000000000000000,0x10000000000,0x400,0x5] (.n (.n (.n .l
  [0x20000000000000000000000000000000000000000000000000000000000000000000000000000000000000000000000000000000000000000000000000000000000000000000000000000000,0x400000000000000000000000000000000000000000000000000000000000000000000000000000000000000000000000000000000000000000000000000000000000000000000000000000,0x8000000000000000000000000000000000000000000000000000000000000000000000000000000000000000000000000000000000000000000000000000000000000000000000000000,0x10000000000000000000000000000000000000000000000000000000000000000000000000000000000000000000000000000000000000000000000000000000000000000000000000,0x8000000000000000000000000000000000000000000000000000000000000000000000000000000000000000000000000000000000000000000000000000000000000000000,0x800000000000000000000000000000000000000000000000000000000000000000000000000000000000000000000000000000000000000000000000000000000,0x200000000000000000000000000000000000000000000000000000000000000000000000000000000000000000000000000000000000000000000000,0x8000000000000000000000000000000000000000000000000000000000000000000000000000000000000000000000000000000000000,0x200000000000000000000000000000000000000000000000000000000000000000000000000000000000000000000,0x40000000000000000000000000000000000000000000000000000000000000000000,0x400000000000000000000000000000000000000000,0x100000000000000000000,0x2000000000000,0x80000,0x20005]
  .l)
  [0x200000000000000000000000000000000000000000000000000000000000000,0x1000000000000000000000000000000000000000,0x2000000000000000000,0x40000000000,0x1000,0x5]
  .l)
  [0x8000000000000000000000000000,0x100000000000100005402b880024003f108000220042e08800000430880820404008000ca0000040002440303fffff022480000482c00000040018210600141000000000000000000]
  (.n .l
  [0x1000000000000000000000000000000000000000000000000000000000000000000000000000000000000000000000000000000000000000,0x2000000000000000000000000000000000000000000000000000000000000000000000000000000000000000000000000,0x4000000000000000000000000000000000000000000000000000000000000000000000000,0x2000000000000000000000000000000000000000000000,0x800000000000000000000000000c0000000000000000000020000000000000000000000]
  .l)))) [] (.n (.n (.n (.n (.n .l
  [0x1000000000000000000000000000000000000000000000000000000000000000000000000000000000000000000000000000000000000000000000000000,0x200000000000000000000000000000000000000000000000000000000000000000000000000000000000000000000000000000000000000000,0x8000000000000000000000000000000000000000000000000000000000000000000000000000000000000000000000000000,0x80000000000000000000000000000000000000000000000000000000000000000000000000000000000,0x400000000000000000000000000000004000000000000000000000000000000000000000000000000000000000,0x40000000000000000000000000000000000010000000000000000000000000000,0x200000000010000000000000000000000000000000000002c200000000220000000000101a40000001a000000000000200400001000000000000000000]
  .l)
  [0x4000000000000000000000000000000000000000000,0x200000000000000000000,0x10000000000000,0x4000000,0x40,0x5]
  .l)
  [0x100000000000100005402b880024003f108000220042e08800000430880820404008000ca0000040002440303fffff022480000482c00000040018210600141000000000000000000]
  (.n .l
  [0x800000000000000000000000000000000000000000000000000000000000000000000000000000000000,0x80000000000000000000000008000000000000000000000000000000000000000000000000000000000,0x400000000000000000000000040000004000000000000000000000000000010000000000000000000000000000]
  .l)) [0x20000000000000,0x8000000,0x40,0x5] (.n (.n (.n .l
  [0x2000000000000000000000000000000000000000000000000000000000000000000000000000000000000000000000000000000000000000000000000000000000000000000000000000,0x4000000000000000000000000000000000000000000000000000000000000000000000000000000000000000000000000000000000000000000000000000000000000000000000000,0x2000000000000000000000000000000000000000000000000000000000000000000000000000000000000000000000000000000000000000000000000000000000000000000,0x200000000000000000000000000000000000000000000000000000000000000000000000000000000000000000000000000000000000000000000000000000000,0x80000000000000000000000000000000000000000000000000000000000000000000000000000000000000000000000000000000000000000000000,0x2000000000000000000000000000000000000000000000000000000000000000000000000000000000000000000000000000000000000,0x80000000000000000000000000000000000000000000000000000000000000000000000000000000000000000000,0x20000000000000000000000000000000000000000000000000000000000000000000,0x400000000000000000000000000000000000000000,0x100000000000000000000,0x2000000000000,0x80000,0x20005]
  .l)
  [0x20000000000000000000000000000000000000000000000000000000000,0x20000000000000000000000000000000000000000000000000000000000000000000000000000000000080000000000010000000000000000000000000000,0x100000000000100005402b880024003f108000220042e08800000430880820404008000ca0000040002440303fffff022480000482c00000040018210600141000000000000000000]
  .l)
  [0x1000000801c050a2800120887a000030538440010d400800230500000404020801fbff5e1010000040000988041000000040000001040000000000001000000000000000000000000000,0x100000000000100005402b880024003f108000220042e08800000430880820404008000ca0000040002440303fffff022480000482c00000040018210600141000000000000000000]
  (.n .l
  [0x2000000000000000000000000000000000000000000000000000000000000000000000000000000000000000000000000000000000,0x8000000000000000000000000000000000000000000000000000000000000000000000000000000000000000,0x10000000000000001400000000000000000000000010000000000000000000000000000000000000000000000000000000000000,0x20000000000000000000000000c000000000000000000000000000040000000000000000000000000000000]
  .l))) [0x4000000,0x40,0x5] (.n (.n (.n (.n .l
  [0x2000000000000000000000000000000000000000000000000000000000000000000000000000000000000000000000000000000000000000000000000000000000000,0x800000000000000000000000000000000000000000000000000000000000000000000000000000000000000000000000000000000000000000000000000,0x100000000000000000000000000000000000000000000000000000000000000000000000000000000000000000000000000000000000000000,0x4000000000000000000000000000000000000000000000000000000000000000000000000000000000000000000000000000,0x80000000000000000000000000000000000000000000000000000000000000000000000000000000000,0x400000000000000000000000000000004000000000000000000000000000000000000000000000000000000000,0x40000000000000000000000000000000000010000000000000000000000000000,0x200000000010000000000000000000000000000000000002c200000000220000000000101a40000001a000000000000200400001000000000000000000]
  .l)
  [0x10000000000000000000000000000000000000000000000000000,0x1000000801c050a2800120887a000030538440010d400800230500000404020801fbff5e1010000040000988041000000040000001040000000000001000000000000000000000000000,0x100000000000100005402b880024003f108000220042e08800000430880820404008000ca0000040002440303fffff022480000482c00000040018210600141000000000000000000]
  .l)
  [0x800000000000000000000008800000000000000000000000000c0000000000000000000020000000000000000000000]
  (.n .l
  [0x400000000000000000000000000000000000000000000000000000000000000000000000000000000000000000000,0x80000000000000000000000000000000000000000000000000000000000000000000,0x400000000000000000000000000000000000000000,0x100000000000000000000,0x2000000000000,0x80000,0x20005]
  .l))
  [0x100000000000100005402b880024003f108000220042e08800000430880820404008000ca0000040002440303fffff022480000482c00000040018210600141000000000000000000]
  (.n (.n .l
  [0x200000000000000000000000000000000000000000000000000000000000000000000,0x1000000000000000000000000000000000000000000,0x100000000000000000000,0x2000000000000,0x80000,0x20005]
  .l)
  [0x40000000000000000000000000000000,0x100000000000100005402b880024003f108000220042e08800000430880820404008000ca0000040002440303fffff022480000482c00000040038210600141000000000000000000]
  (.n .l
  [0x1000000000000000000000000000000000000000000000000000000000000000000000000000000000000000000000000000000000000000000,0x40000000000000000000000000000000000000000000000000000000000000000000000000000000000000000000000000000,0x200000000000000000000000000000000000000000000000000000000000000000000000000000000000,0x8000000000000000000000000000000000000000000000000000000000,0x40000000000000000000000000000000000010000000000000000000000000000,0x200000000010000000000000000000000000000000000002c200000000220000000000101a40000001a000000000000200400001000000000000000000]
  .l))))) [0x5] (.n (.n (.n (.n (.n (.n .l
  [0x20000000000000000000000000000000000000000000000000000000000000000000000000000000000000000000000000000000000000000000000000,0x2000000000000000000000000000000000000000000000000000000000000000000000000000000000000000000000000000000000000000,0x2000000000000000000000000000000000000000000000000000000000000000000000000000000000000000000000000,0x4000000000000000000000000000000000000000000000000000000000000000000000000,0x2000000000000000000000000000000000000000000000,0x800000000000000000000000000c0000000000000000000020000000000000000000000]
  .l)
  [0x200000000000000000000000000000000000000000,0x80000000000000000000,0x800000000000,0x8000010000,0x205]
  .l)
  [0x100000000000100005402b880024003f108000220042e08800000430880820404008000ca0000040002440303fffff022480000482c00000040018210600141000000000000000000]
  (.n .l
  [0x20000000000000000000000000000000000000000000000000000000000000000000000000000000000,0x800000000000000000000000000000000000000000000000000000000,0x8000000000000000000000000000,0x100000000000100005402b880024003f108000220042e08800000430880820404008000ca0000040002440303fffff022480000482c00000040018210600141000000000000000000]
  .l)) [0x100000000000,0x4000,0x5] (.n (.n (.n .l
  [0x1000000000000000000000000000000000000000000000000000000000000000000000000000000000000000000000000000000000000000000000000000000000000000000000000,0x200000000000000000000000000000000000000000000000000000000000000000000000000000000000000000000000000000000000000000000000000000000000000000,0x2000000000000000000000000000000000000000000000000000000000000000000000000000000000000000000000000000000000000000000000000000000,0x4000000000000000000000000000000000000000000000000000000000000000000000000000000000000000000000000000000000000000000,0x100000000000000000000000000000000000000000000000000000000000000000000000000000000000000000000000000000,0x800000000000000000000000000000000000000000000000000000000000000000000000000000000000,0x80000000000000000000000008000000000000000000000000000000000000000000000000000000000,0x400000000000000000000000040000004000000000000000000000000000010000000000000000000000000000]
  .l)
  [0x8000000000000000000000000000000000000000000000000000000000,0x40000000000000000000000000000000000010000000000000000000000000000,0x200000000010000000000000000000000000000000000002c200000000220000000000101a40000001a000000000000200400001000000000000000000]
  .l) [0x400000000000000000000000000,0x800000000000000000,0x20000000000,0x800,0x5] (.n .l
  [0x200000000000000000000000000000000000000000000000000000000000000000000000000000000000000000000000000000,0x1000000000000000000000000000000000000000000000000000000000000000000000000000000000000,0x80000000000000000000000008000000000000000000000000000000000000000000000000000000000,0x400000000000000000000000040000004000000000000000000000000000010000000000000000000000000000]
  .l))) [0x4000,0x5] (.n (.n (.n (.n .l
  [0x1000000000000000000000000000000000000000000000000000000000000000000000000000000000000000000000000000000000000000000000000000000000,0x400000000000000000000000000000000000000000000000000000000000000000000000000000000000000000000000000000000000000000000000,0x10000000000000000000000000000000000000000000000000000000000000000000000000000000000000000000000000000000000000,0x400000000000000000000000000000000000000000000000000000000000000000000000000000000000000000000,0x80000000000000000000000000000000000000000000000000000000000000000000,0x400000000000000000000000000000000000000000,0x100000000000000000000,0x2000000000000,0x80000,0x20005]
  .l)
  [0x20000000000000000000000000000000000000000000000000,0x8000000000000000000000000,0x40000000000000000,0x10000000000,0x400,0x5]
  .l) [0x800000000000000000000,0x10000000000000,0x4000000,0x40,0x5] (.n .l
  [0x8000000000000000000000000000000000000000000000000000000000000000000000000000000000000000000,0x8000000000000000000000000000000000000000000000000000000000000000000,0x100000000000000000000000000000000000000000,0x80000000000000000000,0x800000000000,0x8000010000,0x205]
  .l))
  [0x40000000000000000000001000400000000000000000000200400001000000000000000000,0x800000000000000000000400800000802000020000000000]
  (.n (.n (.n .l
  [0x40000000000000000000000000000000000000000000000000000000000000000000000000000000000000000000000000000000000000000000000000000000000000000000000000000000000,0x1000000000000000000000000000000000000000000000000000000000000000000000000000000000000000000000000000000000000000000000000000000000000000000000000000000000,0x20000000000000000000000000000000000000000000000000000000000000000000000000000000000000000000000000000000000000000000000000000000000000000000000000000000,0x400000000000000000000000000000000000000000000000000000000000000000000000000000000000000000000000000000000000000000000000000000000000000000000000000000,0x8000000000000000000000000000000000000000000000000000000000000000000000000000000000000000000000000000000000000000000000000000000000000000000000000000,0x10000000000000000000000000000000000000000000000000000000000000000000000000000000000000000000000000000000000000000000000000000000000000000000000000,0x8000000000000000000000000000000000000000000000000000000000000000000000000000000000000000000000000000000000000000000000000000000000000000000,0x800000000000000000000000000000000000000000000000000000000000000000000000000000000000000000000000000000000000000000000000000000000,0x200000000000000000000000000000000000000000000000000000000000000000000000000000000000000000000000000000000000000000000000,0x8000000000000000000000000000000000000000000000000000000000000000000000000000000000000000000000000000000000000,0x200000000000000000000000000000000000000000000000000000000000000000000000000000000000000000000,0x40000000000000000000000000000000000000000000000000000000000000000000,0x400000000000000000000000000000000000000000,0x100000000000000000000,0x2000000000000,0x80000,0x20005]
  .l)
  [0x8000000000000000000000000000000000000000000000000000000000000000000,0x100000000000000000000000000000000000000000,0x80000000000000000000,0x800000000000,0x8000010000,0x205]
  .l)
  [0x20000000000000000000000000000,0x100000000000100005402b880024003f108000220042e08800000430880820404008000ca0000040002440303fffff022480000482c00000040018210600141000000000000000000]
  (.n .l
  [0x200000000000000000000000000000000000000000000000000000000000000000000000000000000000000000000000000000000000000000,0x8000000000000000000000000000000000000000000000000000000000000000000000000000000000000000000000000000,0x80000000000000000000000000000000000000000000000000000000000000000000000000000000000,0x400000000000000000000000000000004000000000000000000000000000000000000000000000000000000000,0x40000000000000000000000000000000000010000000000000000000000000000,0x200000000010000000000000000000000000000000000002c200000000220000000000101a40000001a000000000000200400001000000000000000000]
  .l)))) [0x40,0x5] (.n (.n (.n (.n (.n .l
  [0x8000000000000000000000000000000000000000000000000000000000000000000000000000000000000000000000000000000000000000000000000000,0x3800000003800000000000000000000000000000000000000000000000000000000000000000000000000000000000000000000000000000000000000000,0x7000000000000e0000000000000000000000000000000000000000000000000000000000000000000000000000000000000000000000000000,0x1c000000000000000700000000000000000000000000000000000000000000000000000000000000000000000000000000000]
  .l)
  [0x80000000000000000000000000000000000000000000,0x20000000000000000000000,0x100000000000100005402b8a0024003f118000220042e08800000430880820404008002ca0000040022440303fffff03a48000049ac00000040018210600141000200000000000000]
  .l) [0x2000000000000000000,0x40000000000,0x1000,0x5] (.n .l
  [0x200000000000000000000000000000000000000000000000000000000000000000000000000000000000000,0x4000000000000000000000000000000000000000000000000000000000000,0x40000000000000000000000000000000,0x100000000000100005402b880024003f108000220042e08800000430880820404008000ca0000040002440303fffff022480000482c00000040038210600141000000000000000000]
  .l)) [0x800000000000000,0x200000000,0x200,0x5] (.n (.n (.n .l
  [0x200000000000000000000000000000000000000000000000000000000000000000000000000000000000000000000000000000000000000000000000000000000000000000000000000000,0x4000000000000000000000000000000000000000000000000000000000000000000000000000000000000000000000000000000000000000000000000000000000000000000000000000,0x8000000000000000000000000000000000000000000000000000000000000000000000000000000000000000000000000000000000000000000000000000000000000000000000000,0x4000000000000000000000000000000000000000000000000000000000000000000000000000000000000000000000000000000000000000000000000000000000000000000,0x400000000000000000000000000000000000000000000000000000000000000000000000000000000000000000000000000000000000000000000000000000000,0x100000000000000000000000000000000000000000000000000000000000000000000000000000000000000000000000000000000000000000000000,0x4000000000000000000000000000000000000000000000000000000000000000000000000000000000000000000000000000000000000,0x100000000000000000000000000000000000000000000000000000000000000000000000000000000000000000000,0x40000000000000000000000000000000000000000000000000000000000000000000,0x400000000000000000000000000000000000000000,0x100000000000000000000,0x2000000000000,0x80000,0x20005]
  .l)
  [0x8000000000000000000000000000000000000000000000000000000000000,0x40000000000000000000000000000000,0x100000000000100005402b880024003f108000220042e08800000430880820404008000ca0000040002440303fffff022480000482c00000040038210600141000000000000000000]
  .l)
  [0x1000000801c050a28001208842000030500440010d400800230500000404020801fbff5e1010000040000988041000000040000001040000000000001000000000000000000000000000,0x100000000000100005402b8800240038108000220042008800000430880820404008000ca0000040002440303fffff022480000482c00000040018210600141000000000000000000]
  (.n .l
  [0x4000000000000000000000000000000000000000000000000000000000000000000000000000000000000000000000000000000000000,0x100000000000000000000000000000000000000000000000000000000000000000000000000000000000000000000,0x40000000000000000000000000000000000000000000000000000000000000000000,0x400000000000000000000000000000000000000000,0x100000000000000000000,0x2000000000000,0x80000,0x20005]
  .l))) [0x400000000,0x200,0x5] (.n (.n (.n (.n .l
  [0x100000000000000000000000000000000000000000000000000000000000000000000000000000000000000000000000000000000000000000000000000000000000000,0x2000000000000000000000000000000000000000000000000000000000000000000000000000000000000000000000000000000000000000000000000000,0x400000000000000000000000000000000000000000000000000000000000000000000000000000000000000000000000000000000000000000,0x10000000000000000000000000000000000000000000000000000000000000000000000000000000000000000000000000000,0x80000000000000000000000000000000000000000000000000000000000000000000000000000000000,0x400000000000000000000000000000004000000000000000000000000000000000000000000000000000000000,0x40000000000000000000000000000000000010000000000000000000000000000,0x200000000010000000000000000000000000000000000002c200000000220000000000101a40000001a000000000000200400001000000000000000000]
  .l)
  [0x400000000000000000000000000000000000000000000000000000,0x1000000801c050a2800120887a000030538440010d400800230500000404020801fbff5e1010000040000988041000000040000001040000000000001000000000000000000000000000,0x100000000000100005402b880024003f108000220042e08800000430880820404008000ca0000040002440303fffff022480000482c00000040018210600141000000000000000000]
  .l) [0x200000000000000000000000,0x1000000000000000,0x400000000,0x200,0x5] (.n .l
  [0x2000000000000000000000000000000000000000000000000000000000000000000000000000000000000000000000000,0x4000000000000000000000000000000000000000000000000000000000000000000000000,0x2000000000000000000000000000000000000000000000,0x800000000000000000000000000c0000000000000000000020000000000000000000000]
  .l))
  [0x100000000000100005402b880024003f108000220042e08800000430880820404008000ca0000040002440303fffff022480000482c00000040018210600141000000000000000000]
  (.n (.n .l
  [0x400000000000000000000000000000000000000000000000000000000000000000000000,0x200000000000000000000000000000000000000000000,0x80000000000000000000020000000000000000000000]
  .l)
  [0x80000000000200000000000002000000002000000000000000000000000000000000000000,0x1000000001000000000000001000002000000000000000000]
  (.n .l
  [0x2000000000000000000000000000000000000000000000000000000000000000000000000000000000000000000000000000000000000000000000,0x20000000000000000000000000000000000000000000000000000000000000000000000000000000000000000000000000000000000,0x800000000000000000000000000000000000000000000000000000000000000000000000000000000000000000,0x80000000000000000000000000000000000000000000000000000000000000000,0x20000000001000000000000000000000000000000000000200000000002000000000000018000000018000000000000000000000000000000000000000,0x2000000000000002000000000000000000000000000000000000000000000004000000004000000000000006000014000000000000000000]
  .l))))))) [0x1] (.n (.n (.n (.n (.n (.n (.n (.n .l
  [0x100000000000000000000000000000000000000000000000000000000000000000000000000000000000000000000000000000000000000000000000,0x4000000000000000000000000000000000000000000000000000000000000000000000000000000000000000000000000000000000000,0x100000000000000000000000000000000000000000000000000000000000000000000000000000000000000000000,0x40000000000000000000000000000000000000000000000000000000000000000000,0x400000000000000000000000000000000000000000,0x100000000000000000000,0x2000000000000,0x80000,0x20005]
  .l)
  [0x20000000001000000000000000000000000000000000000200000000002000000000000018000000018000000000000000000000000000000000000000,0x2000000000000002000000000000000000000000000000000000000000000004000000004000000000000006000014000000000000000000]
  .l)
  [0x100000000000100005402b880024003f108000220042e08800000430880820404008000ca0000040002440303fffff022480000482c00000040018210600141000000000000000000]
  (.n .l
  [0x8000000000000000000000000000000000000000000000000000000000000000000000000,0x40000000000000000000000000000000000000000000000,0x100000000000000000000000,0x800000000000000,0x200000000,0x200,0x5]
  .l)) [0x10000000000,0x400,0x5] (.n (.n (.n .l
  [0x2000000000000000000000000000000000000000000000000000000000000000000000000000000000000000000000000000000000000000000000000000000000000000000,0x200000000000000000000000000000000000000000000000000000000000000000000000000000000000000000000000000000000000000000000000000000000,0x80000000000000000000000000000000000000000000000000000000000000000000000000000000000000000000000000000000000000000000000,0x2000000000000000000000000000000000000000000000000000000000000000000000000000000000000000000000000000000000000,0x80000000000000000000000000000000000000000000000000000000000000000000000000000000000000000000,0x20000000000000000000000000000000000000000000000000000000000000000000,0x400000000000000000000000000000000000000000,0x100000000000000000000,0x2000000000000,0x80000,0x20005]
  .l)
  [0x20000000000000000000000000000000000000000000000000000000000000000000010000000000000000000000000000000000000000000000000000000,0x1000000801c050a2800120887a000030538440010d400800230500000404020801fbff5e1010000040000988041000000040000001040000000000001000000000000000000000000000,0x100000000000100005402b880024003f108000220042e08800000430880820404008000ca0000040002440303fffff022480000482c00000040018210600141000000000000000000]
  .l) [0x2000000000000000000000000,0x8000000000000000,0x2000000000,0x200,0x5] (.n .l
  [0x800000000000000000000000000000000000000000000000000000000000000000000000000000000000000000000000000,0x2000000000000000000000000000000000000000000000000000000000000000000000000000000000,0x800000000000000000000000000000000000000000000000000000040000000000000000000000000000000000000000000000000000000,0x1000000801c050a2800120887a000030538440010d400800230500000404020801fbff5e1010000040000988041000000040000001040000000000001000000000000000000000000000,0x100000000000100005402b880024003f108000220042e08800000430880820404008000ca0000040002440303fffff022480000482c00000040018210600141000000000000000000]
  .l))) [0x200,0x5] (.n (.n (.n (.n .l
  [0x800000000000000000000000000000000000000000000000000000000000000000000000000000000000000000000000000000000000000000000000000000,0x2000000000000000000000000000000000000000000000000000000000000000000000000000000000000000000000000000000000000000000,0x80000000000000000000000000000000000000000000000000000000000000000000000000000000000000000000000000000,0x400000000000000000000000000000000000000000000000000000000000000000000000000000000000,0x8000000000000000000000000000000000000000000000000000000000,0x40000000000000000000000000000000000010000000000000000000000000000,0x200000000010000000000000000000000000000000000002c200000000220000000000101a40000001a000000000000200400001000000000000000000]
  .l)
  [0x2000000000000000000000000000000000000000000000,0x800000000000000000000000000c0000000000000000000020000000000000000000000]
  .l) [0x200040000000000000000000,0x1000200000000000,0x400008000,0x205] (.n .l
  [0x1000000000000000000000000000000000000000000000000000000000000000000000000000000000000000,0x8000000000000000000000000000000000000000000000000000000000000,0x40000000000000000000000000000000,0x100000000000100005402b880024003f108000220042e08800000430880820404008000ca0000040002440303fffff022480000482c00000040038210600141000000000000000000]
  .l)) [0x10000000000000000,0x4000000000,0x200,0x5] (.n (.n (.n .l
  [0x8000000000000000000000000000000000000000000000000000000000000000000000000000000000000000000000000000000000000000000000000000000000000000000000000000000,0x100000000000000000000000000000000000000000000000000000000000000000000000000000000000000000000000000000000000000000000000000000000000000000000000000000,0x2000000000000000000000000000000000000000000000000000000000000000000000000000000000000000000000000000000000000000000000000000000000000000000000000000,0x4000000000000000000000000000000000000000000000000000000000000000000000000000000000000000000000000000000000000000000000000000000000000000000000000,0x2000000000000000000000000000000000000000000000000000000000000000000000000000000000000000000000000000000000000000000000000000000000000000000,0x200000000000000000000000000000000000000000000000000000000000000000000000000000000000000000000000000000000000000000000000000000000,0x80000000000000000000000000000000000000000000000000000000000000000000000000000000000000000000000000000000000000000000000,0x2000000000000000000000000000000000000000000000000000000000000000000000000000000000000000000000000000000000000,0x80000000000000000000000000000000000000000000000000000000000000000000000000000000000000000000,0x20000000000000000000000000000000000000000000000000000000000000000000,0x400000000000000000000000000000000000000000,0x100000000000000000000,0x2000000000000,0x80000,0x20005]
  .l)
  [0x40000000000000000000000000000000000000000000000000000000000000,0x20000000000000000000000000c000000000000000000000000000040000000000000000000000000000000]
  .l)
  [0x800000000000000000000000000004000000000000000000000000000,0x100000000000100005402b880024003f108000220042e08800000430880820404008000ca0000040002440303fffff022480000482c00000040018210600141000000000000000000]
  (.n .l
  [0x1000000000000000000000000000000000000000000000000000000000000000000000000000000000000000000000000000000000000000,0x2000000000000000000000000000000000000000000000000000000000000000000000000000000000000000000000000,0x4000000000000000000000000000000000000000000000000000000000000000000000000,0x2000000000000000000000000000000000000000000000,0x800000000000000000000000000c0000000000000000000020000000000000000000000]
  .l)))) [0x5] (.n (.n (.n (.n (.n .l
  [0x800000000000000000000000000000000000000000000000000000000000000000000000000000000000000000000000000000000000000000000000000,0x100000000000000000000000000000000000000000000000000000000000000000000000000000000000000000000000000000000000000000,0x4000000000000000000000000000000000000000000000000000000000000000000000000000000000000000000000000000,0x80000000000000000000000000000000000000000000000000000000000000000000000000000000000,0x400000000000000000000000000000004000000000000000000000000000000000000000000000000000000000,0x40000000000000000000000000000000000010000000000000000000000000000,0x200000000010000000000000000000000000000000000002c200000000220000000000101a40000001a000000000000200400001000000000000000000]
  .l)
  [0x1000000000000000000000000000000000000000000,0x100000000000000000000,0x2000000000000,0x80000,0x20005]
  .l)
  [0x100000000000100005402b880024003f108000220042e08800000430880820404008000ca0000040002440303fffff022480000482c00000040018210600141000000000000000000]
  (.n .l
  [0x200000000000000000000000000000000000000000000000000000000000000000000000000000000000,0x8000000000000000000000000000000000000000000000000000000000,0x40000000000000000000000000000000000010000000000000000000000000000,0x200000000010000000000000000000000000000000000002c200000000220000000000101a40000001a000000000000200400001000000000000000000]
  .l)) [0x10000000000000,0x4000000,0x40,0x5] (.n (.n (.n .l
  [0x80000000000000000000000000000000000000000000000000000000000000000000000000000000000000000000000000000000000000000000000000000000000000000000000000,0x40000000000000000000000000000000000000000000000000000000000000000000000000000000000000000000000000000000000000000000000000000000000000000000,0x4000000000000000000000000000000000000000000000000000000000000000000000000000000000000000000000000000000000000000000000000000000000,0x1000000000000000000000000000000000000000000000000000000000000000000000000000000000000000000000000000000000000000000000000,0x40000000000000000000000000000000000000000000000000000000000000000000000000000000000000000000000000000000000000,0x1000000000000000000000000000000000000000000000000000000000000000000000000000000000000000000000,0x200000000000000000000000000000000000000000000000000000000000000000000,0x1000000000000000000000000000000000000000000,0x100000000000000000000,0x2000000000000,0x80000,0x20005]
  .l)
  [0x10000000000000000000000000000000000000000000000000000000000,0x20000000000000000000000000000000000000000000000000000000000000000000000000000000000080000000000010000000000000000000000000000,0x100000000000100005402b880024003f108000220042e08800000430880820404008000ca0000040002440303fffff022480000482c00000040018210600141000000000000000000]
  .l)
  [0x1000000801c050a2800120887a000030538440010d400800230500000404020801fbff5e1010000040000988041000000040000001040000000000001000000000000000000000000000,0x100000000000100005402b880024003f108000220042e08800000430880820404008000ca0000040002440303fffff022480000482c00000040018210600141000000000000000000]
  (.n .l
  [0x80000000000000000000000000000000000000000000000000000000000000000000000000000000000000000000000000000000,0x400000000000000000000000000000000000000000000000000000000000000000000000000000000000000,0x4000000000000000000000000000000000000000000000000000000000000,0x40000000000000000000000000000000,0x100000000000100005402b880024003f108000220042e08800000430880820404008000ca0000040002440303fffff022480000482c00000040038210600141000000000000000000]
  .l))) [0x200000,0x4,0x1] (.n (.n (.n (.n .l
  [0x200000000000000000000000000000000000000000000000000000000000000000000000000000000000000000000000000000000000000000000000000000000000,0x20000000000000000000000000000000000000000000000000000000000000000000000000000000000000000000000000000000000000000000000000,0x2000000000000000000000000000000000000000000000000000000000000000000000000000000000000000000000000000000000000000,0x2000000000000000000000000000000000000000000000000000000000000000000000000000000000000000000000000,0x4000000000000000000000000000000000000000000000000000000000000000000000000,0x2000000000000000000000000000000000000000000000,0x800000000000000000000000000c0000000000000000000020000000000000000000000]
  .l)
  [0x4000000000000000000000000000000000000000000000000000,0x1000000801c050a2800120887a000030538440010d400800230500000404020801fbff5e1010000040000988041000000040000001040000000000001000000000000000000000000000,0x100000000000100005402b880024003f108000220042e08800000430880820404008000ca0000040002440303fffff022480000482c00000040018210600141000000000000000000]
  .l) [0x80000000000000000000020000000000000000000000] (.n .l
  [0x100000000000000000000000000000000000000000000000000000000000000000000000000000000000000000000,0x40000000000000000000000000000000000000000000000000000000000000000000,0x400000000000000000000000000000000000000000,0x100000000000000000000,0x2000000000000,0x80000,0x20005]
  .l))
  [0x100000000000100005402b880024003f108000220042e08800000430880820404008000ca0000040002440303fffff022480000482c00000040018210600141000000000000000000]
  (.n (.n .l
  [0x80000000000000000000000000000000000000000000000000000000000000000000,0x400000000000000000000000000000000000000000,0x100000000000000000000,0x2000000000000,0x80000,0x20005]
  .l)
  [0x40000000000000000000000000000000,0x100000000000100005402b880024003f108000220042e08800000430880820404008000ca0000040002440303fffff022480000482c00000040038210600141000000000000000000]
  (.n .l
  [0x800000000000000000000000000000000000000000000000000000000000000000000000000000000000000000000000000000000000000000,0x20000000000000000000000000000000000000000000000000000000000000000000000000000000000000000000000000000,0x100000000000000000000000000000000000000000000000000000000000000000000000000000000000,0x8000000000000000000000000000000000000000000000000000000000,0x40000000000000000000000000000000000010000000000000000000000000000,0x200000000010000000000000000000000000000000000002c200000000220000000000101a40000001a000000000000200400001000000000000000000]
  .l))))) [0x5] (.n (.n (.n (.n (.n (.n .l
  [0x10000000000000000000000000000000000000000000000000000000000000000000000000000000000000000000000000000000000000000000000000,0x1000000000000000000000000000000000000000000000000000000000000000000000000000000000000000000000000000000000000000,0x2000000000000000000000000000000000000000000000000000000000000000000000000000000000000000000000000,0x4000000000000000000000000000000000000000000000000000000000000000000000000,0x2000000000000000000000000000000000000000000000,0x800000000000000000000000000c0000000000000000000020000000000000000000000]
  .l)
  [0x40000000000000000000000000000000000000000,0x200040000000000000000000,0x1000200000000000,0x400008000,0x205]
  .l)
  [0x100000000000100005402b880024003f108000220042e08800000430880820404008000ca0000040002440303fffff022480000482c00000040018210600141000000000000000000]
  (.n .l
  [0x4000000000000000000000000000000000000000000000000000000800000000000000000000000000000000000000000000000000000000000000000000000000000000,0x20000000000000000000000000000000000000000000000000000000000000000000010000000000000000000000000000000000000000000000000000000,0x1000000801c050a2800120887a000030538440010d400800230500000404020801fbff5e1010000040000988041000000040000001040000000000001000000000000000000000000000,0x100000000000100005402b880024003f108000220042e08800000430880820404008000ca0000040002440303fffff022480000482c00000040018210600141000000000000000000]
  .l)) [0x80000000000,0x2000,0x5] (.n (.n (.n .l
  [0x8000000000000000000000000000000000000000000000000000000000000000000000000000000000000000000000000000000000000000000000000000000000000000000000,0x20000000000000000000000000000000000000000000000000000000000000000000000000000000000000000000000000000000000000000000000000000000000000,0x1000000000000000000000000000000000000000000000000000000000000000000000000000000000000000000000000000000000000000000000000000,0x200000000000000000000000000000000000000000000000000000000000000000000000000000000000000000000000000000000000000000,0x8000000000000000000000000000000000000000000000000000000000000000000000000000000000000000000000000000,0x80000000000000000000000000000000000000000000000000000000000000000000000000000000000,0x400000000000000000000000000000004000000000000000000000000000000000000000000000000000000000,0x40000000000000000000000000000000000010000000000000000000000000000,0x200000000010000000000000000000000000000000000002c200000000220000000000101a40000001a000000000000200400001000000000000000000]
  .l)
  [0x1000000000000000000000000000000000000000000000000000000000,0x8000000000000000000000000000,0x100000000000100005402b880024003f108000220042e08800000430880820404008000ca0000040002440303fffff022480000482c00000040018210600141000000000000000000]
  .l)
  [0x100000000000000000000000000,0x400000000000000000,0x10000000000900000000000000010000000000000004000000000000000000000000400000000300000000000000000000000406800070000000000]
  (.n .l
  [0x100000000000000000000000000000000000000000000000000000000000000000000000000000000000000000000000000000,0x800000000000000000000000000000000000000000000000000000000000000000000000000000000000,0x80000000000000000000000008000000000000000000000000000000000000000000000000000000000,0x400000000000000000000000040000004000000000000000000000000000010000000000000000000000000000]
  .l))) [0x1000,0x5] (.n (.n (.n (.n .l
  [0x400000000000000000000000000000000000000000000000000000000000000000000000000000000000000000000000000000000000000000000000000000000,0x100000000000000000000000000000000000000000000000000000000000000000000000000000000000000000000000000000000000000000000000,0x4000000000000000000000000000000000000000000000000000000000000000000000000000000000000000000000000000000000000,0x100000000000000000000000000000000000000000000000000000000000000000000000000000000000000000000,0x40000000000000000000000000000000000000000000000000000000000000000000,0x400000000000000000000000000000000000000000,0x100000000000000000000,0x2000000000000,0x80000,0x20005]
  .l)
  [0x8000000000000000000000000000000000000000000000000,0x2000000000000000000000000,0x8000000000000000,0x2000000000,0x200,0x5]
  .l) [0x200000000000000000000,0x10000000000000,0x4000000,0x40,0x5] (.n .l
  [0x1000000000000000000000000000000000000000000000000000000000000000000000000000000000000000000,0x100000000000000000000000000000000000000000000000000000000000000000,0x20000000001000000000000000000000000000000000000200000000002000000000000018000000018000000000000000000000000000000000000000,0x2000000000000002000000000000000000000000000000000000000000000004000000004000000000000006000014000000000000000000]
  .l)) [0x800000000000000000,0x20000000000,0x800,0x5] (.n (.n (.n .l
  [0x1000000000000000000000000000000000000000000000000000000000000000000000000000000000000000000000000000000000000000000000000000000000000000000000000000000000,0x20000000000000000000000000000000000000000000000000000000000000000000000000000000000000000000000000000000000000000000000000000000000000000000000000000000,0x400000000000000000000000000000000000000000000000000000000000000000000000000000000000000000000000000000000000000000000000000000000000000000000000000000,0x8000000000000000000000000000000000000000000000000000000000000000000000000000000000000000000000000000000000000000000000000000000000000000000000000000,0x10000000000000000000000000000000000000000000000000000000000000000000000000000000000000000000000000000000000000000000000000000000000000000000000000,0x8000000000000000000000000000000000000000000000000000000000000000000000000000000000000000000000000000000000000000000000000000000000000000000,0x800000000000000000000000000000000000000000000000000000000000000000000000000000000000000000000000000000000000000000000000000000000,0x200000000000000000000000000000000000000000000000000000000000000000000000000000000000000000000000000000000000000000000000,0x8000000000000000000000000000000000000000000000000000000000000000000000000000000000000000000000000000000000000,0x200000000000000000000000000000000000000000000000000000000000000000000000000000000000000000000,0x40000000000000000000000000000000000000000000000000000000000000000000,0x400000000000000000000000000000000000000000,0x100000000000000000000,0x2000000000000,0x80000,0x20005]
  .l)
  [0x4000000000000000000000000000000000000000000000000000000000000000000,0x40000000000000000000000000000000000000000,0x200040000000000000000000,0x1000200000000000,0x400008000,0x205]
  .l) [0x10000000000000000080000000000010000000000000000000000000000] (.n .l
  [0x80000000000000000000000000000000000000000000000000000000000000000000000000000000000000000000000000000000000000000,0x2000000000000000000000000000000000000000000000000000000000000000000000000000000000000000000000000000,0x40000000000000000000000000000000000000000000000000000000000000000000000000000000000,0x1000000000000000000000000000000000000000000000000000000000,0x8000000000000000000000000000,0x100000000000100005402b880024003f108000220042e08800000430880820404008000ca0000040002440303fffff022480000482c00000040018210600141000000000000000000]
  .l)))) [0x40,0x5] (.n (.n (.n (.n (.n .l
  [0x4000000000000000000000000000000000000000000000000000000000000000000000000000000000000000000000000000000000000000000000000000,0x800000000000000000000000000000000000000000000000000000000000000000000000000000000000000000000000000000000000000000,0x20000000000000000000000000000000000000000000000000000000000000000000000000000000000000000000000000000,0x100000000000000000000000000000000000000000000000000000000000000000000000000000000000,0x8000000000000000000000000000000000000000000000000000000000,0x40000000000000000000000000000000000010000000000000000000000000000,0x200000000010000000000000000000000000000000000002c200000000220000000000101a40000001a000000000000200400001000000000000000000]
  .l)
  [0x700000000070000000000000020000100000003000000130000000040000000000001200000000000010000000000000080000000000000000000000000000000000000000000,0x400038000002001c000000000000000000800000008000000028000000000000430000000000040000000000000600080000000000010000020000000000000000000000]
  .l)
  [0x100000000000100005402b880024003f108000220042e08800000430880820404008000ca0000040002440303fffff022480000482c00000040018210600141000000000000000000]
  (.n .l
  [0x80000000000800000000000000020000000000000000000000000000000000000000000000000000000000000000000000000000000000000,0x4000000000000000000000000000000000002000000000000008000000000000000000000000040000000000000000000000000000000000000000000000000000000000,0x20000000000000000000000000000000000000002040000000000000000000000030000000000000000080000000000010000000000000000000000000000]
  .l)) [0x400000000000000,0x100000000,0x100,0x5] (.n (.n (.n .l
  [0x80000000000000000000000000000000000000000000000000000000000000000000000000000000000000000000000000000000000000000000000000000000000000000000000000000,0x100000000000000000000000000000000000000000000000000000000000000000000000000000000000000000000000000000000000000000000000000000000000000000000000000,0x80000000000000000000000000000000000000000000000000000000000000000000000000000000000000000000000000000000000000000000000000000000000000000000,0x8000000000000000000000000000000000000000000000000000000000000000000000000000000000000000000000000000000000000000000000000000000000,0x2000000000000000000000000000000000000000000000000000000000000000000000000000000000000000000000000000000000000000000000000,0x80000000000000000000000000000000000000000000000000000000000000000000000000000000000000000000000000000000000000,0x2000000000000000000000000000000000000000000000000000000000000000000000000000000000000000000000,0x400000000000000000000000000000000000000000000000000000000000000000000,0x1000000000000000000000000000000000000000000,0x100000000000000000000,0x2000000000000,0x80000,0x20005]
  .l)
  [0x4000000000000000000000000000000000000000000000000000000000000,0x40000000000000000000000000000000,0x100000000000100005402b880024003f108000220042e08800000430880820404008000ca0000040002440303fffff022480000482c00000040038210600141000000000000000000]
  .l)
  [0x1000000801c050a2800120887a000030538440010d400800230500000404020801fbff5e1010000040000988041000000040000001040000000000001000000000000000000000000000,0x100000000000100005402b880024003f108000220042e08800000430880820404008000ca0000040002440303fffff022480000482c00000040018210600141000000000000000000]
  (.n .l
  [0x800000000000000000000000000000000000000000000000000000000000000000000000000000000000000000000000000000000000,0x20000000000000000000000000000000000000000000000000000000000000000000000000000000000000000000,0x8000000000000000000000000000000000000000000000000000000000000000000,0x100000000000000000000000000000000000000000,0x80000000000000000000,0x800000000000,0x8000010000,0x205]
  .l))) [0x100000000,0x100,0x5] (.n (.n (.n (.n .l
  [0x80000000000000000000000000000000000000000000000000000000000000000000000000000000000000000000000000000000000000000000000000000000000000,0x2000000000000000000000000000000000000000000000000000000000000000000000000000000000000000000000000000000000000000000000000000,0x400000000000000000000000000000000000000000000000000000000000000000000000000000000000000000000000000000000000000000,0x10000000000000000000000000000000000000000000000000000000000000000000000000000000000000000000000000000,0x80000000000000000000000000000000000000000000000000000000000000000000000000000000000,0x400000000000000000000000000000004000000000000000000000000000000000000000000000000000000000,0x40000000000000000000000000000000000010000000000000000000000000000,0x200000000010000000000000000000000000000000000002c200000000220000000000101a40000001a000000000000200400001000000000000000000]
  .l)
  [0x100000000000000000000000000000000000000000000000000000,0x1000000801c050a2800120887a000030538440010d400800230500000404020801fbff5e1010000040000988041000000040000001040000000000001000000000000000000000000000,0x100000000000100005402b880024003f108000220042e08800000430880820404008000ca0000040002440303fffff022480000482c00000040018210600141000000000000000000]
  .l) [0x100000000000000000000000,0x800000000000000,0x200000000,0x200,0x5] (.n .l
  [0x800000000000000000000000000000000000000000000000000000000000000000000000000000000000000000000000,0x2000000000000000000000000000000000000000000000000000000000000000000000000,0x1000000000000000000000000000000000000000000000,0x800000000000000000000008800000000000000000000000000c0000000000000000000020000000000000000000000]
  .l))
  [0x100000000000100005402b880024003f108000220042e08800000430880820404008000ca0000040002440303fffff022480000482c00000040018210600141000000000000000000]
  (.n (.n .l
  [0x80000000000000000000000000000000000000000000000000000000000000000000000,0x80000000000000000000000000000000000000000000,0x20000000000000000000000,0x100000000000100005402b8a0024003f118000220042e08800000430880820404008002ca0000040022440303fffff03a48000049ac00000040018210600141000200000000000000]
  .l) [0x2000000000000000000000000000000000000000,0x2000000000000000000,0x40000000000,0x1000,0x5]
  (.n .l
  [0x8000000000000000000000000000000000000000000000000000000000000000000000000000000000000000000000000000000000000000000,0x200000000000000000000000000000000000000000000000000000000000000000000000000000000000000000000000000000,0x1000000000000000000000000000000000000000000000000000000000000000000000000000000000000,0x80000000000000000000000008000000000000000000000000000000000000000000000000000000000,0x400000000000000000000000040000004000000000000000000000000000010000000000000000000000000000]
  .l)))))) [0x5] (.n (.n (.n (.n (.n (.n (.n .l
  [0x1000000000000000000000000000000000000000000000000000000000000000000000000000000000000000000000000000000000000000000000000,0x40000000000000000000000000000000000000000000000000000000000000000000000000000000000000000000000000000000000000,0x1000000000000000000000000000000000000000000000000000000000000000000000000000000000000000000000,0x200000000000000000000000000000000000000000000000000000000000000000000,0x1000000000000000000000000000000000000000000,0x100000000000000000000,0x2000000000000,0x80000,0x20005]
  .l)
  [0x10000000010000000000000000000000000000000000000000,0x4000010000000000000000000,0x10000100000000000,0x4000004000,0x205]
  .l)
  [0x100000000000100005402b880024003f108000220042e08800000430880820404008000ca0000040002440303fffff022480000482c00000040018210600141000000000000000000]
  (.n .l
  [0x4000000000000000000000000000000000000000000000000000000000000000000000000000,0x200000000000000000000000000000000000000000000000000,0x100000000000000000000000000,0x400000000000000000,0x10000000000900000000000000010000000000000004000000000000000000000000400000000300000000000000000000000406800070000000000]
  .l))
  [0x10000000000900000000000000010000000000000004000000000000000000000000400000000300000000000000000000000406800070000000000]
  (.n (.n (.n .l
  [0x20000000000000000000000000000000000000000000000000000000000000000000000000000000000000000000000000000000000000000000000000000000000000000000,0x2000000000000000000000000000000000000000000000000000000000000000000000000000000000000000000000000000000000000000000000000000000000,0x800000000000000000000000000000000000000000000000000000000000000000000000000000000000000000000000000000000000000000000000,0x20000000000000000000000000000000000000000000000000000000000000000000000000000000000000000000000000000000000000,0x800000000000000000000000000000000000000000000000000000000000000000000000000000000000000000000,0x100000000000000000000000000000000000000000000000000000000000000000000,0x800000000000000000000000000000000000000000,0x100000000000000000000,0x2000000000000,0x80000,0x20005]
  .l)
  [0x80000000000000000000000000000000000000000000000000000000,0x1000000801c050a2800120887a000030538440010d400800230500000404020801fbff5e1010000040000988041000000040000001040000000000001000000000000000000000000000,0x100000000000100005402b880024003f108000220042e08800000430880820404008000ca0000040002440303fffff022480000482c00000040018210600141000000000000000000]
  .l) [0x10000000000000000000000000,0x40000000000000000,0x10000000000,0x400,0x5] (.n .l
  [0x10000000000000000000000000000000000000000000000000000000000000000000000000000000000000000000000000000,0x80000000000000000000000000000000000000000000000000000000000000000000000000000000000,0x400000000000000000000000000000004000000000000000000000000000000000000000000000000000000000,0x40000000000000000000000000000000000010000000000000000000000000000,0x200000000010000000000000000000000000000000000002c200000000220000000000101a40000001a000000000000200400001000000000000000000]
  .l))) [0x200,0x5] (.n (.n (.n (.n .l
  [0x4000000000000000000000000000000000000000000000000000000000000000000000000000000000000000000000000000000000000000000000000000000,0x8000000000000000000000000000000000000000000000000000000000000000000000000000000000000000000000000000000000000000000,0x200000000000000000000000000000000000000000000000000000000000000000000000000000000000000000000000000000,0x1000000000000000000000000000000000000000000000000000000000000000000000000000000000000,0x80000000000000000000000008000000000000000000000000000000000000000000000000000000000,0x400000000000000000000000040000004000000000000000000000000000010000000000000000000000000000]
  .l)
  [0x800000000000000000000000000000000000000000000000,0x800000000000000000000000,0x2000000000000000,0x800000000,0x200,0x5]
  .l) [0x100000000000000000000,0x2000000000000,0x80000,0x20005] (.n .l
  [0x8000000000000000000000000000000000000000000000000000000000000000000000000000000000000000,0x10000000000000001400000000000000000000000010000000000000000000000000000000000000000000000000000000000000,0x20000000000000000000000000c000000000000000000000000000040000000000000000000000000000000]
  .l))
  [0x80000000000000000,0x10000000000900000000000000010000000000000004000000000000000000000000400000000300000000000000000000000406800070000000000]
  (.n (.n (.n .l
  [0x100000000000000000000000000000000000000000000000000000000000000000000000000000000000000000000000000000000000000000000000000000000000000000000000000000000,0x2000000000000000000000000000000000000000000000000000000000000000000000000000000000000000000000000000000000000000000000000000000000000000000000000000000,0x40000000000000000000000000000000000000000000000000000000000000000000000000000000000000000000000000000000000000000000000000000000000000000000000000000,0x80000000000000000000000000000000000000000000000000000000000000000000000000000000000000000000000000000000000000000000000000000000000000000000000000,0x40000000000000000000000000000000000000000000000000000000000000000000000000000000000000000000000000000000000000000000000000000000000000000000,0x4000000000000000000000000000000000000000000000000000000000000000000000000000000000000000000000000000000000000000000000000000000000,0x1000000000000000000000000000000000000000000000000000000000000000000000000000000000000000000000000000000000000000000000000,0x40000000000000000000000000000000000000000000000000000000000000000000000000000000000000000000000000000000000000,0x1000000000000000000000000000000000000000000000000000000000000000000000000000000000000000000000,0x200000000000000000000000000000000000000000000000000000000000000000000,0x1000000000000000000000000000000000000000000,0x100000000000000000000,0x2000000000000,0x80000,0x20005]
  .l)
  [0x40000000000000000000000000000000000000000000000000000000000000000,0x20000000001000000000000000000000000000000000000200000000002000000000000018000000018000000000000000000000000000000000000000,0x2000000000000002000000000000000000000000000000000000000000000004000000004000000000000006000014000000000000000000]
  .l)
  [0x10000000000000000000000000000,0xc2000000000200000000001002400000002000000000000200400001000000000000000000]
  (.n .l
  [0x4000000000000000000000000000000000000000000000000000000000000000000000000000000000000000000000000000000000000000,0x80000000000000000000000000000000000000000000000000000000000000000000000000000000000000000000000000,0x200000000000000000000000000000000000000000000000000000000000000000000000000000,0x20000000000000000000000000000000000000000000000000000,0x1000000801c050a2800120887a000030538440010d400800230500000404020801fbff5e1010000040000988041000000040000001040000000000001000000000000000000000000000,0x100000000000100005402b880024003f108000220042e08800000430880820404008000ca0000040002440303fffff022480000482c00000040018210600141000000000000000000]
  .l)))) [0x4,0x1] (.n (.n (.n (.n (.n .l
  [0x1000000000000000000000000000000000000000000000000000000000000000000000000000000000000000000000000000000000000000000000000000,0x200000000000000000000000000000000000000000000000000000000000000000000000000000000000000000000000000000000000000000,0x8000000000000000000000000000000000000000000000000000000000000000000000000000000000000000000000000000,0x80000000000000000000000000000000000000000000000000000000000000000000000000000000000,0x400000000000000000000000000000004000000000000000000000000000000000000000000000000000000000,0x40000000000000000000000000000000000010000000000000000000000000000,0x200000000010000000000000000000000000000000000002c200000000220000000000101a40000001a000000000000200400001000000000000000000]
  .l)
  [0x20000000000000000000000000000000000000000000,0x10000000000000000000000,0x200000000000000,0x80000000,0x80,0x5]
  .l)
  [0x100000000000100005402b880024003f108000220042e08800000430880820404008000ca0000040002440303fffff022480000482c00000040018210600141000000000000000000]
  (.n .l
  [0x2000000000000000000000000000000000000000000000000000000000000000000000000000000000000,0x10000000000000000000000000000000000000000000000000000000000,0x20000000000000000000000000000000000000000000000000000000000000000000000000000000000080000000000010000000000000000000000000000,0x100000000000100005402b880024003f108000220042e08800000430880820404008000ca0000040002440303fffff022480000482c00000040018210600141000000000000000000]
  .l)) [0x80000000000000,0x40000000,0x2000000000000000000000800000000000004000040] (.n (.n (.n .l
  [0x8000000000000000000000000000000000000000000000000000000000000000000000000000000000000000000000000000000000000000000000000000000000000000000000000000,0x10000000000000000000000000000000000000000000000000000000000000000000000000000000000000000000000000000000000000000000000000000000000000000000000000,0x8000000000000000000000000000000000000000000000000000000000000000000000000000000000000000000000000000000000000000000000000000000000000000000,0x800000000000000000000000000000000000000000000000000000000000000000000000000000000000000000000000000000000000000000000000000000000,0x200000000000000000000000000000000000000000000000000000000000000000000000000000000000000000000000000000000000000000000000,0x8000000000000000000000000000000000000000000000000000000000000000000000000000000000000000000000000000000000000,0x200000000000000000000000000000000000000000000000000000000000000000000000000000000000000000000,0x40000000000000000000000000000000000000000000000000000000000000000000,0x400000000000000000000000000000000000000000,0x100000000000000000000,0x2000000000000,0x80000,0x20005]
  .l)
  [0x4000000000000000000000000000000000000000000000000000000000000000000000000000040000000000000000000000000000000000000000000000000000000000,0x20000000000000000000000000000000000000000000000000000000000000000010000000000000000080000000000010000000000000000000000000000]
  .l)
  [0x1000000801c050a2800120887a000030538440010d400800230500000404020801fbff5e1010000040000988041000000040000001040000000000001000000000000000000000000000,0x100000000000100005402b880024003f108000220042e08800000430880820404008000ca0000040002440303fffff022480000482c00000040018210600141000000000000000000]
  (.n .l
  [0x40000000000000000000000000000000000000000000000000000000000000000000000000000000000000000000000000000000000,0x1000000000000000000000000000000000000000000000000000000000000000000000000000000000000000000,0x100000000000000000000000000000000000000000000000000000000000000000,0x20000000001000000000000000000000000000000000000200000000002000000000000018000000018000000000000000000000000000000000000000,0x2000000000000002000000000000000000000000000000000000000000000004000000004000000000000006000014000000000000000000]
  .l))) [0x20000000,0x2000000000000000000000800000000000004000040] (.n (.n (.n (.n .l
  [0x8000000000000000000000000000000000000000000000000000000000000000000000000000000000000000000000000000000000000000000000000000000000000,0x800000000000000000000000000000000000000000000000000000000000000000000000000000000000000000000000000000000000000000000000000,0x100000000000000000000000000000000000000000000000000000000000000000000000000000000000000000000000000000000000000000,0x4000000000000000000000000000000000000000000000000000000000000000000000000000000000000000000000000000,0x80000000000000000000000000000000000000000000000000000000000000000000000000000000000,0x400000000000000000000000000000004000000000000000000000000000000000000000000000000000000000,0x40000000000000000000000000000000000010000000000000000000000000000,0x200000000010000000000000000000000000000000000002c200000000220000000000101a40000001a000000000000200400001000000000000000000]
  .l)
  [0x20000000000000000000000000000000000000000000000000000,0x1000000801c050a2800120887a000030538440010d400800230500000404020801fbff5e1010000040000988041000000040000001040000000000001000000000000000000000000000,0x100000000000100005402b880024003f108000220042e08800000430880820404008000ca0000040002440303fffff022480000482c00000040018210600141000000000000000000]
  .l)
  [0x800000000000000000000008800000000000000000000000000c0000000000000000000020000000000000000000000]
  (.n .l
  [0x1000000000000000000000000000000000000000000000000000000000000000000000000000000000000000000000,0x200000000000000000000000000000000000000000000000000000000000000000000,0x1000000000000000000000000000000000000000000,0x100000000000000000000,0x2000000000000,0x80000,0x20005]
  .l))
  [0x100000000000100005402b880024003f108000220042e08800000430880820404008000ca0000040002440303fffff022480000482c00000040018210600141000000000000000000]
  (.n (.n .l
  [0x1000000000000000000000000000000000000000000000000000000000000000000000,0x4000000000000000000000000000000000000000000,0x200000000000000000000,0x10000000000000,0x4000000,0x40,0x5]
  .l) [0x20000000000000000000000000c000000000000000000000000000040000000000000000000000000000000]
  (.n .l
  [0x2000000000000000000000000000000000000000000000000000000000000000000000000000000000000000000000000000000000000000000,0x80000000000000000000000000000000000000000000000000000000000000000000000000000000000000000000000000000,0x400000000000000000000000000000000000000000000000000000000000000000000000000000000000,0x8000000000000000000000000000000000000000000000000000000000,0x40000000000000000000000000000000000010000000000000000000000000000,0x200000000010000000000000000000000000000000000002c200000000220000000000101a40000001a000000000000200400001000000000000000000]
  .l))))) [0x5] (.n (.n (.n (.n (.n (.n .l
  [0x40000000000000000000000000000000000000000000000000000000000000000000000000000000000000000000000000000000000000000000000000,0x4000000000000000000000000000000000000000000000000000000000000000000000000000000000000000000000000000000000000000,0x80000000000000000000000000000000000000000000000000000000000000000000000000000000000000000000000000,0x200000000000000000000000000000000000000000000000000000000000000000000000000000,0x20000000000000000000000000000000000000000000000000000,0x1000000801c050a2800120887a000030538440010d400800230500000404020801fbff5e1010000040000988041000000040000001040000000000001000000000000000000000000000,0x100000000000100005402b880024003f108000220042e08800000430880820404008000ca0000040002440303fffff022480000482c00000040018210600141000000000000000000]
  .l)
  [0x400000000000000000000000000000000000000000,0x100000000000000000000,0x2000000000000,0x80000,0x20005]
  .l)
  [0x100000000000100005402b880024003f108000220042e08800000430880820404008000ca0000040002440303fffff022480000482c00000040018210600141000000000000000000]
  (.n .l
  [0x80000000000000000000000000000000000000000000000000000000000000000000000000000000000,0x400000000000000000000000000000004000000000000000000000000000000000000000000000000000000000,0x40000000000000000000000000000000000010000000000000000000000000000,0x200000000010000000000000000000000000000000000002c200000000220000000000101a40000001a000000000000200400001000000000000000000]
  .l)) [0x200000000000,0x8000,0x5] (.n (.n (.n .l
  [0x8000000000000000000000000000000000000000000000000000000000000000000000000000000000000000000000000000000000000000000000000000000000000000000000000,0x4000000000000000000000000000000000000000000000000000000000000000000000000000000000000000000000000000000000000000000000000000000000000000000,0x400000000000000000000000000000000000000000000000000000000000000000000000000000000000000000000000000000000000000000000000000000000,0x100000000000000000000000000000000000000000000000000000000000000000000000000000000000000000000000000000000000000000000000,0x4000000000000000000000000000000000000000000000000000000000000000000000000000000000000000000000000000000000000,0x100000000000000000000000000000000000000000000000000000000000000000000000000000000000000000000,0x40000000000000000000000000000000000000000000000000000000000000000000,0x400000000000000000000000000000000000000000,0x100000000000000000000,0x2000000000000,0x80000,0x20005]
  .l)
  [0x8000000000000000000000000000000000000000000000000000000000,0x40000000000000000000000000000000000010000000000000000000000000000,0x200000000010000000000000000000000000000000000002c200000000220000000000101a40000001a000000000000200400001000000000000000000]
  .l)
  [0x1000000801c050a2800120887a000030538440010d400800230500000404020801fbff5e1010000040000988041000000040000001040000000000001000000000000000000000000000,0x100000000000100005402b880024003f108000220042e08800000430880820404008000ca0000040002440303fffff022480000482c00000040018210600141000000000000000000]
  (.n .l
  [0x4000000000000000000000000000000000000000000000000000000000000000000000000000000000000000000000000000000,0x80000000000800000000000000020000000000000000000000000000000000000000000000000000000000000000000000000000000000000,0x4000000000000000000000000000000000002000000000000008000000000000000000000000040000000000000000000000000000000000000000000000000000000000,0x20000000000000000000000000000000000000002040000000000000000000000030000000000000000080000000000010000000000000000000000000000]
  .l))) [0x10000,0x5] (.n (.n (.n (.n .l
  [0x4000000000000000000000000000000000000000000000000000000000000000000000000000000000000000000000000000000000000000000000000000000000,0x1000000000000000000000000000000000000000000000000000000000000000000000000000000000000000000000000000000000000000000000000,0x40000000000000000000000000000000000000000000000000000000000000000000000000000000000000000000000000000000000000,0x1000000000000000000000000000000000000000000000000000000000000000000000000000000000000000000000,0x200000000000000000000000000000000000000000000000000000000000000000000,0x1000000000000000000000000000000000000000000,0x100000000000000000000,0x2000000000000,0x80000,0x20005]
  .l)
  [0x200000000000000000000000000000000000000000000000000,0x100000000000000000000000000,0x400000000000000000,0x10000000000900000000000000010000000000000004000000000000000000000000400000000300000000000000000000000406800070000000000]
  .l)
  [0x20000000000000000000000,0x100000000000100005402b8a0024003f118000220042e08800000430880820404008002ca0000040022440303fffff03a48000049ac00000040018210600141000200000000000000]
  (.n .l
  [0x10000000000000000000000000000000000000000000000000000000000000000000000000000000000000000000,0x8000000000000000000000000000000000000000000000000000000000000000000,0x100000000000000000000000000000000000000000,0x80000000000000000000,0x800000000000,0x8000010000,0x205]
  .l))
  [0x100000000000100005402b880024003f108000220042e08800000430880820404008000ca0000040002440303fffff022480000482c00000040010210600141000000000000000000]
  (.n (.n .l
  [0x10000000000000000000000000000000000000000000000000000000000000000000,0x200000000000000000000000000000000000000000,0x80000000000000000000,0x800000000000,0x8000010000,0x205]
  .l)
  [0x20000000000000000000000000000,0x100000000000100005402b880024003f108000220042e08800000430880820404008000ca0000040002440303fffff022480000482c00000040018210600141000000000000000000]
  (.n .l
  [0x800000000000000000000000000000000000000000000000000000000000000000000000000000000000000000000000000000000000000000,0x20000000000000000000000000000000000000000000000000000000000000000000000000000000000000000000000000000,0x100000000000000000000000000000000000000000000000000000000000000000000000000000000000,0x8000000000000000000000000000000000000000000000000000000000,0x40000000000000000000000000000000000010000000000000000000000000000,0x200000000010000000000000000000000000000000000002c200000000220000000000101a40000001a000000000000200400001000000000000000000]
  .l)))) [0x2000000000000000000000800000000000004000040] (.n (.n (.n (.n (.n .l
  [0x20000000000000000000000000000000000000000000000000000000000000000000000000000000000000000000000000000000000000000000000000000,0x3800000003800000000000000000000000000000000000000000000000000000000000000000000000000000000000000000000000000000000000000000,0x7000000000000e0000000000000000000000000000000000000000000000000000000000000000000000000000000000000000000000000000,0x1c000000000000000700000000000000000000000000000000000000000000000000000000000000000000000000000000000]
  .l)
  [0x200000000000000000000000000000000000000000000,0x80000000000000000000020000000000000000000000]
  .l) [0x4000000000000000000,0x80000000000,0x2000,0x5] (.n .l
  [0x200000000000000000000000000000000000000000000000000000000000000000000000000000000000000,0x4000000000000000000000000000000000000000000000000000000000000,0x40000000000000000000000000000000,0x100000000000100005402b880024003f108000220042e08800000430880820404008000ca0000040002440303fffff022480000482c00000040038210600141000000000000000000]
  .l)) [0x2000000000000000,0x800000000,0x200,0x5] (.n (.n (.n .l
  [0x800000000000000000000000000000000000000000000000000000000000000000000000000000000000000000000000000000000000000000000000000000000000000000000000000000,0x10000000000000000000000000000000000000000000000000000000000000000000000000000000000000000000000000000000000000000000000000000000000000000000000000000,0x20000000000000000000000000000000000000000000000000000000000000000000000000000000000000000000000000000000000000000000000000000000000000000000000000,0x10000000000000000000000000000000000000000000000000000000000000000000000000000000000000000000000000000000000000000000000000000000000000000000,0x1000000000000000000000000000000000000000000000000000000000000000000000000000000000000000000000000000000000000000000000000000000000,0x400000000000000000000000000000000000000000000000000000000000000000000000000000000000000000000000000000000000000000000000,0x10000000000000000000000000000000000000000000000000000000000000000000000000000000000000000000000000000000000000,0x400000000000000000000000000000000000000000000000000000000000000000000000000000000000000000000,0x80000000000000000000000000000000000000000000000000000000000000000000,0x400000000000000000000000000000000000000000,0x100000000000000000000,0x2000000000000,0x80000,0x20005]
  .l)
  [0x8000000000000000000000000000000000000000000000000000000000000,0x40000000000000000000000000000000,0x100000000000100005402b880024003f108000220042e08800000430880820404008000ca0000040002440303fffff022480000482c00000040038210600141000000000000000000]
  .l)
  [0x1000000801c050a2800120887a000030538440010d400800230400000404020801fbff5e1010000040000988041000000040000001040000000000001000000000000000000000000000,0x100000000000100005402b880024003f108000220042e08800000430880820404008000c80000040002440303fffff022480000482c00000040018210600141000000000000000000]
  (.n .l
  [0x10000000000000000000000000000000000000000000000000000000000000000000000000000000000000000000000000000000000000,0x400000000000000000000000000000000000000000000000000000000000000000000000000000000000000000000,0x80000000000000000000000000000000000000000000000000000000000000000000,0x400000000000000000000000000000000000000000,0x100000000000000000000,0x2000000000000,0x80000,0x20005]
  .l))) [0x1000000000,0x200,0x5] (.n (.n (.n (.n .l
  [0x10000000000000000000000000000000000000000000000000000000000000000000000000000000000000000000000000000000000000000000000000000000000000000,0x80000000000000000000000000000000000000000000000000000000000000000000000000000000000000000000000000000000000000000000000000000,0x1000000000000000000000000000000000000000000000000000000000000000000000000000000000000000000000000000000000000000000,0x40000000000000000000000000000000000000000000000000000000000000000000000000000000000000000000000000000,0x200000000000000000000000000000000000000000000000000000000000000000000000000000000000,0x8000000000000000000000000000000000000000000000000000000000,0x40000000000000000000000000000000000010000000000000000000000000000,0x200000000010000000000000000000000000000000000002c200000000220000000000101a40000001a000000000000200400001000000000000000000]
  .l)
  [0x1000000000000000000000000000000000000000000000000000000,0x1000000801c050a2800120887a000030538440010d400800230500000404020801fbff5e1010000040000988041000000040000001040000000000001000000000000000000000000000,0x100000000000100005402b880024003f108000220042e08800000430880820404008000ca0000040002440303fffff022480000482c00000040018210600141000000000000000000]
  .l) [0x800000000000000000000000,0x2000000000000000,0x800000000,0x200,0x5] (.n .l
  [0x80000000000000000000000000000000000000000000000000000000000000000000000000000000000000000000000000,0x200000000000000000000000000000000000000000000000000000000000000000000000000000,0x20000000000000000000000000000000000000000000000000000,0x1000000801c050a2800120887a000030538440010d400800230500000404020801fbff5e1010000040000988041000000040000001040000000000001000000000000000000000000000,0x100000000000100005402b880024003f108000220042e08800000430880820404008000ca0000040002440303fffff022480000482c00000040018210600141000000000000000000]
  .l))
  [0x100000000000100005402b880024003f108000220042e08800000430880820404008000ca0000040002440303fffff022480000482c00000040038210600141000000000000000000]
  (.n (.n .l
  [0x80000000000000000000000800000000000000000000000000000000000000000000000000000000000000000000000,0x8000000000000000000000410000000000000000000000000200000000000000000000000000000000000000000000]
  .l) [0x8000000000000000000000000000000000000000,0x4000000000000000000,0x80000000000,0x2000,0x5]
  (.n .l
  [0x8000000000000000000000000000000000000000000000000000000000000000000000000000000000000000000000000000000000000000000000,0x100000000000000000000000000000000000000000000000000000000000000000000000000000000000000000000000000000000000,0x8000000000000000000000000000000000000000000000000000000000000000000000000000000000000000000,0x8000000000000000000000000000000000000000000000000000000000000000000,0x100000000000000000000000000000000000000000,0x80000000000000000000,0x800000000000,0x8000010000,0x205]
  .l)))))))))
/-- states with a goto on a nonterminal -/
def gotoMasks : Bt Nat :=
  (.n (.n (.n (.n (.n (.n (.n .l 0x10000000000000 .l) 0x20005 .l)
  0x10000000000900000000000000010000000000000004000000000000000000000000400000000300000000000000000000000406800070000000000
  (.n .l
  0x100000000000100005402b880024003f108000220042e08800000430880820404008000ca0000040002440303fffff022480000482c00000040018210600141000000000000000000
  .l)) 0x400000000000000 (.n (.n (.n .l
  0x10000000000000000000000000200000000000000000000000000000000000000000000 .l)
  0x100000000000100005402b880024003f108000220042e08800000430880820404008000ca0000040002440303fffff022480000482c00000040018210600141000000000000000000
  .l) 0x80000000000000000000000008000000000000000000000000000000000000000000000000000000000 (.n .l
  0x100000000000100005402b880024003f108000220042e08800000430880820404008000ca0000040002440303fffff022480000482c00000040018210600141000000000000000000
  .l)))
  0x100000000000100005402b880024003f108000220042e08800000430880820404008000ca0000040002440303fffff022480000482c00000040018210600141000000000000000000
  (.n (.n (.n (.n .l 0x80000000000000000 .l)
  0x100000000000100005402b880024003f108000220042e08800000430880820404008000ca0000040002440303fffff022480000482c00000040018210600141000000000000000000
  .l) 0x2000000000000000000000800000000000004000040 (.n .l
  0x100000000000100005402b880024003f108000220042e08800000430880820404008000ca0000040002440303fffff022480000482c00000040018210600141000000000000000000
  .l)) 0x800000000000000000000000000c0000000000000000000020000000000000000000000 (.n (.n (.n .l
  0x4000000000000080000000000000000000000000000000000000000000000000000000000000000000000000000000000000000000000000
  .l)
  0x100000000000100005402b880024003f108000220042e08800000430880820404008000ca0000040002440303fffff022480000482c00000040018210600141000000000000000000
  .l)
  0x100000000000100005402b8a0024003f118000220042e08800000430880820404008002ca0000040022440303fffff03a48000049ac00000040018210600141000200000000000000
  (.n .l
  0x100000000000100005402b880024003f108000220042e08800000430880820404008000ca0000040002440303fffff022480000482c00000040018210600141000000000000000000
  .l)))) 0x5 (.n (.n (.n (.n (.n .l
  0x400038000002001c000000000000000000800000008000000028000000000000430000000000040000000000000600080000000000010000020000000000000000000000
  .l)
  0x100000000000100005402b880024003f108000220042e08800000430880820404008000ca0000040002440303fffff022480000482c00000040038210600141000000000000000000
  .l) 0x8000080000000000 (.n .l
  0x100000000000100005402b880024003f108000220042e08800000430880820404008000ca0000040002440303fffff022480000482c00000040018210600141000000000000000000
  .l)) 0x200000000002000000000000008000000008000000000000000000000000000000000000000 (.n (.n (.n
  .l 0x5 .l)
  0x100000000000100005402b880024003f108000220042e08800000430880820404008000ca0000040002440303fffff022480000482c00000040018210600141000000000000000000
  .l)
  0x800000000000000000000008800000000000000000000000000c0000000000000000000020000000000000000000000
  (.n .l
  0x100000000000100005402b880024003f108000220042e08800000430880820404008000ca0000040002440303fffff022480000482c00000040018210600141000000000000000000
  .l))) 0x8000010000 (.n (.n (.n (.n .l
  0x4000000000000000000000000000000000002000000000000008000000000000000000000000040000000000000000000000000000000000000000000000000000000000
  .l)
  0x100000000000100005402b880024003f108000220042e08800000430880820404008000ca0000040002440303fffff022480000482c00000040018210600141000000000000000000
  .l) 0x80000000000000000000000008000000000000000000000000000000000000000000000000000000000 (.n .l
  0x100000000000100005402b880024003f108000220042e08800000430880820404008000ca0000040002440303fffff022480000482c00000040018210600141000000000000000000
  .l))
  0x10000000000900000000000000010000000000000004000000000000000000000000400000000300000000000000000000000406800070000000000
  (.n (.n .l
  0x100000000000100005402b880024003f108000220042e08800000430880820404008000ca0000040002440303fffff022480000482c00000040018210600141000000000000000000
  .l)
  0x800000000000000000000008800000000000000000000000000c0000000000000000000020000000000000000000000
  (.n .l
  0x100000000000100005402b880024003f108000220042e08800000430880820404008000ca0000040002440303fffff022480000482c00000040018210600141000000000000000000
  .l))))) 0x1 (.n (.n (.n (.n (.n (.n .l
  0x8000000000000000000000000000000000000000000000000000000000000000000 .l) 0x5 .l)
  0x20000000080000000000000000 (.n .l
  0x100000000000100005402b880024003f108000220042e08800000430880820404008000ca0000040002440303fffff022480000482c00000040018210600141000000000000000000
  .l)) 0x80000000000200000000000002000000002000000000000000000000000000000000000000 (.n (.n (.n .l
  0x80000000000000000000020000000000000000000000 .l)
  0x100000000000100005402b880024003f108000220042e08800000430880820404008000ca0000040002440303fffff022480000482c00000040018210600141000000000000000000
  .l)
  0x20000000001000000000000000000000000000000000000200000000002000000000000018000000018000000000000000000000000000000000000000
  (.n .l
  0x100000000000100005402b880024003f108000220042e08800000430880820404008000ca0000040002440303fffff022480000482c00000040018210600141000000000000000000
  .l))) 0x40 (.n (.n (.n (.n .l 0x100000000000000000000000000 .l)
  0x100000000000100005402b880024003f108000220042e08800000430880820404008000ca0000040002440303fffff022480000482c00000040018210600141000000000000000000
  .l)
  0x200000000010000000000000000000000000000000000002c200000000220000000000101a40000001a000000000000200400001000000000000000000
  (.n .l
  0x100000000000100005402b880024003f108000220042e08800000430880820404008000ca0000040002440303fffff022480000482c00000040018210600141000000000000000000
  .l)) 0x200040000000000000000000 (.n (.n .l
  0x100000000000100005402b880024003f108000220042e08800000430880820404008000ca0000040002440303fffff022480000482c00000040018210600141000000000000000000
  .l)
  0x800000000000000000000008800000000000000000000000000c0000000000000000000020000000000000000000000
  (.n .l
  0x100000000000100005402b880024003f108000220042e08800000430880820404008000ca0000040002440303fffff022480000482c00000040018210600141000000000000000000
  .l))))
  0x100000000000100005402b880024003f108000220042e08800000430880820404008000ca0000040002440303fffff022480000482c00000040018210600141000000000000000000
  (.n (.n (.n (.n (.n .l 0x40000000000000000000000000000000000000000 .l)
  0x100000000000100005402b880024003f108000220042e08800000430880820404008000ca0000040002440303fffff022480000482c00000040018210600141000000000000000000
  .l) 0x10000100000000000 (.n .l
  0x100000000000100005402b880024003f108000220042e08800000430880820404008000ca0000040002440303fffff022480000482c00000040018210600141000000000000000000
  .l)) 0x10000000010000000000000000000000000000000000000000 (.n (.n (.n .l
  0x20000000000000000000000000c000000000000000000000000000040000000000000000000000000000000 .l)
  0x100000000000100005402b880024003f108000220042e08800000430880820404008000ca0000040002440303fffff022480000482c00000040018210600141000000000000000000
  .l)
  0x100000000000100005402b880024003f108000220042e08800000430880820404008000ca0000040002440303fffff022480000482c00000040018210600141000000000000000000
  (.n .l
  0x100000000000100005402b880024003f108000220042e08800000430880820404008000ca0000040002440303fffff022480000482c00000040018210600141000000000000000000
  .l))) 0x40000000000000000000001000400000000000000000000200400001000000000000000000 (.n (.n (.n
  (.n .l
  0x20000000000000000000000000000000000000000000000000000000000000000010000000000000000080000000000010000000000000000000000000000
  .l)
  0x100000000000100005402b880024003f108000220042e08800000430880820404008000ca0000040002440303fffff022480000482c00000040018210600141000000000000000000
  .l) 0x80000000000000000000000008000000000000000000000000000000000000000000000000000000000 (.n .l
  0x100000000000100005402b880024003f108000220042e08800000430880820404008000ca0000040002440303fffff022480000482c00000040018210600141000000000000000000
  .l))
  0x10000000000900000000000000010000000000000004000000000000000000000000400000000300000000000000000000000406800070000000000
  (.n (.n .l
  0x100000000000100005402b880024003f108000220042e08800000430880820404008000ca0000040002440303fffff022480000482c00000040018210600141000000000000000000
  .l)
  0x100000000000100005402b880024003f108000220042e08800000430880820404008000ca0000040002440303fffff022480000482c00000040018210600141000000000000000000
  (.n .l 0x1 .l))))))
/-- ranks of the nonterminals (by number minus 128), decreasing from right to left in unit rules -/
def ntRanks : Bt Nat :=
  (.n (.n (.n (.n (.n (.n (.n .l 0 .l) 2 .l) 2 (.n .l 5 .l)) 0 (.n (.n (.n .l 0 .l) 5 .l) 0 (.n .l
  5 .l))) 1 (.n (.n (.n (.n .l 0 .l) 4 .l) 0 (.n .l 5 .l)) 1 (.n (.n (.n .l 0 .l) 5 .l) 3 (.n .l 5
  .l)))) 2 (.n (.n (.n (.n (.n .l 0 .l) 3 .l) 0 (.n .l 5 .l)) 0 (.n (.n (.n .l 1 .l) 5 .l) 1 (.n
  .l 4 .l))) 0 (.n (.n (.n (.n .l 0 .l) 5 .l) 0 (.n .l 5 .l)) 0 (.n (.n .l 5 .l) 0 (.n .l 5
  .l))))) 0 (.n (.n (.n (.n (.n (.n .l 0 .l) 0 .l) 1 (.n .l 5 .l)) 0 (.n (.n (.n .l 0 .l) 5 .l) 1
  (.n .l 5 .l))) 0 (.n (.n (.n (.n .l 0 .l) 5 .l) 1 (.n .l 5 .l)) 0 (.n (.n .l 4 .l) 1 (.n .l 5
  .l)))) 2 (.n (.n (.n (.n (.n .l 0 .l) 3 .l) 0 (.n .l 4 .l)) 0 (.n (.n (.n .l 0 .l) 5 .l) 3 (.n
  .l 5 .l))) 0 (.n (.n (.n (.n .l 0 .l) 5 .l) 0 (.n .l 5 .l)) 1 (.n (.n .l 5 .l) 3 (.n .l 1
  .l))))))
end Pycep
