import Verif.Props.ReadBack

/-!
# C75: the languages

The words for values in the language files (`i18n/*/dictionary.h`), as code points, for all 109 languages in which the words
that are written (`CTR_DICT_CODEGEN_*`) are the words that are read (`CTR_DICT_ARRAY_OBJECT`, `CTR_DICT_MAP_OBJECT`,
`CTR_DICT_NEW`, `CTR_DICT_NEW_ARRAY_AND_PUSH_SYMBOL`, `CTR_DICT_PUT_AT`). In the other five (`fy`, `it`, `ka`, `sv`, `yak`) they are not.
-/

namespace Verif.Props.ReadBack
open Verif.Spec (Dict encode)
open Verif.Spec.ReadBack
open Verif.Spec.Lexer (blank digit)
open Verif.Model.ReadBack
open Verif.Model.Interp
open Verif.Model.Nest (codeOf)

/-- The part of a language file that matters for values: the name of the folder; end of line, message chain, assignment,
return, the quotes, the two separators in numbers, the icons for own and new variables; the parameter sign; the words for
sequence, new, the sign for a new sequence, list, put, at, Nil, True and False; the numbers of blanks after the first two
kinds of texts. -/
structure Lang where
  folder : List Nat
  symbols : List (List Nat)
  param : Nat
  words : List (List Nat)
  gap1 : Nat
  gap2 : Nat

/-- The bytes of a text given by code points. -/
def enc (l : List Nat) : List UInt8 := encode (l.map Char.ofNat)

/-- The symbols of a language. -/
def Lang.dict (L : Lang) : Dict where
  eol := enc (L.symbols.getD 0 [])
  chain := enc (L.symbols.getD 1 [])
  assign := enc (L.symbols.getD 2 [])
  ret := enc (L.symbols.getD 3 [])
  qo := enc (L.symbols.getD 4 [])
  qc := enc (L.symbols.getD 5 [])
  tho := enc (L.symbols.getD 6 [])
  dec := enc (L.symbols.getD 7 [])
  my := enc (L.symbols.getD 8 [])
  var := enc (L.symbols.getD 9 [])
  param := UInt8.ofNat L.param

/-- The words of a language. -/
def Lang.names (L : Lang) : Names where
  seq := enc (L.words.getD 0 [])
  new := enc (L.words.getD 1 [])
  arrow := enc (L.words.getD 2 [])
  list := enc (L.words.getD 3 [])
  put := enc (L.words.getD 4 [])
  «at» := enc (L.words.getD 5 [])
  none := enc (L.words.getD 6 [])
  true := enc (L.words.getD 7 [])
  false := enc (L.words.getD 8 [])
  gap1 := List.replicate L.gap1 32
  gap2 := List.replicate L.gap2 32

/-- `Solid` without the part about UTF-8. -/
def solid (d : Dict) (w : List UInt8) : Bool :=
  decide (w ≠ []) && decide (w.length ≤ 255) &&
  decide (∀ c ∈ w, c ∉ [0, 35, 40, 41, d.param] ∧ blank c = false) &&
  decide (∀ c ∈ w.take 1, c ∉ ([45, 123, 125] : List UInt8) ∧ digit c = false) &&
  decide (∀ i < w.length, ∀ K ∈ [d.eol, d.qo, d.assign, d.chain, [58, 61]],
    K.isPrefixOf (w.drop i) = false ∧ (w.drop i).isPrefixOf K = false) &&
  decide ((d.ret ++ [32]).isPrefixOf w = false) && decide (w.isPrefixOf (d.ret ++ [32]) = false)

/-- Can the language write values down? -/
def Lang.fits (L : Lang) : Bool :=
  decide (Spec.Parser.GoodDict L.dict) && decide (Clear L.dict L.names) &&
  (([59] :: (List.range 9).map (L.words.getD · [])).all fun w => solid L.dict (enc w)) &&
  decide (∀ w ∈ [L.names.seq, L.names.list, L.names.none, L.names.true, L.names.false], w ∉ [L.dict.my, L.dict.var, [62, 62]]) &&
  oneChar L.names.arrow && !oneChar L.names.new && decide (L.names.put.length + L.names.at.length ≤ 253)

/-- The languages. -/
def langs : List Lang := [
  ⟨[97, 102], [[46], [44], [58, 61], [60, 45], [91, 39], [39, 93], [46], [44], [111, 119, 110], [62, 62]], 58,
    [[82, 101, 101, 107, 115], [110, 117, 119, 101], [8592], [76, 121, 115], [115, 105, 116], [98, 121], [76, 101, 101, 103], [74, 97], [78, 101, 101]], 1, 1⟩,
  ⟨[97, 109], [[46], [44], [58, 61], [60, 45], [91, 39], [39, 93], [46], [44], [111, 119, 110], [118, 97, 114]], 58,
    [[4720, 4776, 4723, 4723, 4845], [4768, 4850, 4661], [8592], [4829, 4653, 4829, 4653], [4752, 4872, 4653], [4710, 4723], [4707, 4854], [4768, 4814], [4768, 4845]], 1, 1⟩,
  ⟨[97, 114], [[46], [1548], [58, 61], [60, 45], [91, 39], [39, 93], [46], [44], [111, 119, 110], [118, 97, 114]], 58,
    [[1602, 1575, 1574, 1605, 1577], [1580, 1583, 1610, 1583], [8592], [1582, 1585, 1610, 1591, 1577], [1590, 1593], [1601, 1610], [1601, 1575, 1585, 1594, 1577], [1606, 1593, 1605], [1604, 1575]], 1, 1⟩,
  ⟨[97, 122], [[46], [44], [58, 61], [60, 45], [91, 39], [39, 93], [46], [44], [111, 119, 110], [118, 97, 114]], 58,
    [[83, 101, 114, 105, 121, 97], [121, 101, 110, 105], [8592], [83, 105, 121, 97, 104, 305], [111, 98, 121, 101, 107, 116], [121, 101, 114], [66, 111, 351], [68, 111, 287, 114, 117], [89, 97, 108, 97, 110]], 1, 1⟩,
  ⟨[98, 101], [[46], [44], [8788], [8626], [8216], [8217], [46], [44], [9919], [9758]], 58,
    [[1057, 1087, 1110, 1089], [1085, 1086, 1074, 1099], [8592], [1050, 1072, 1088, 1090, 1072], [1087, 1072, 1082, 1083, 1072, 1089, 1094, 1110], [1091], [1053, 1110, 1083, 1100], [1055, 1088, 1072, 1118, 1076, 1072], [1030, 1083, 1078, 1099, 1074, 1072, 1103]], 1, 1⟩,
  ⟨[98, 103], [[46], [44], [58, 61], [60, 45], [91, 39], [39, 93], [46], [44], [111, 119, 110], [118, 97, 114]], 58,
    [[1089, 1087, 1080, 1089, 1098, 1082], [1085, 1086, 1074], [8592], [1082, 1072, 1088, 1090, 1072], [1089, 1083, 1072, 1075, 1072, 1084], [1085, 1072, 45, 1072, 1076, 1088, 1077, 1089], [1053, 1080, 1097, 1086], [1042, 1103, 1088, 1085, 1086], [1092, 1072, 1083, 1096, 1080, 1074]], 1, 1⟩,
  ⟨[98, 110], [[46], [44], [58, 61], [60, 45], [91, 39], [39, 93], [46], [44], [111, 119, 110], [118, 97, 114]], 58,
    [[2468, 2494, 2482, 2495, 2453, 2494], [2472, 2468, 2497, 2472], [8592], [2478, 2494, 2472, 2458, 2495, 2468, 2509, 2480], [2453, 2480, 2494], [2489, 2479, 2492], [2486, 2498, 2472, 2509, 2479], [2488, 2468, 2509, 2479], [2478, 2495, 2469, 2509, 2479, 2494]], 1, 1⟩,
  ⟨[98, 115], [[46], [44], [58, 61], [60, 45], [91, 39], [39, 93], [46], [44], [111, 119, 110], [118, 97, 114]], 58,
    [[76, 105, 115, 116, 97], [110, 111, 118, 111], [8592], [77, 97, 112, 97], [115, 116, 97, 118, 105], [115, 97], [78, 105, 108], [73, 115, 116, 105, 110, 105, 116, 111], [76, 97, 382, 110, 111]], 1, 1⟩,
  ⟨[99, 97], [[46], [44], [58, 61], [60, 45], [91, 39], [39, 93], [46], [44], [111, 119, 110], [118, 97, 114]], 58,
    [[76, 108, 105, 115, 116, 97], [110, 111, 117], [8592], [77, 97, 112, 97], [112, 111, 115, 97, 114], [97], [78, 105, 108], [201, 115, 45, 99, 101, 114, 116], [70, 97, 108, 115]], 1, 1⟩,
  ⟨[99, 101, 98], [[46], [44], [58, 61], [60, 45], [91, 39], [39, 93], [46], [44], [111, 119, 110], [118, 97, 114]], 58,
    [[80, 97, 103, 108, 105, 115, 116, 97], [98, 97, 103, 45, 111, 45, 110, 103, 97], [8592], [77, 97, 112, 97], [103, 105, 98, 117, 116, 97, 110, 103], [115, 97], [78, 105, 108], [84, 105, 110, 117, 111, 100], [66, 97, 107, 97, 107]], 1, 1⟩,
  ⟨[99, 111], [[46], [44], [58, 61], [60, 45], [91, 39], [39, 93], [46], [44], [111, 119, 110], [118, 97, 114]], 58,
    [[83, 101, 114, 105, 101], [110, 111, 118, 117], [8592], [76, 105, 115, 116, 97], [109, 101, 116, 116, 101], [224], [78, 105, 108], [72, 232, 45, 118, 101, 114, 97], [70, 97, 108, 115, 101]], 1, 1⟩,
  ⟨[99, 115], [[46], [44], [58, 61], [60, 45], [91, 39], [39, 93], [8201], [44], [111, 119, 110], [118, 97, 114]], 58,
    [[83, 101, 122, 110, 97, 109], [110, 111, 118, 253], [8592], [77, 97, 112, 97], [117, 109, 237, 115, 116, 105, 116], [110, 97], [78, 105, 99], [80, 114, 97, 118, 100, 97], [78, 101, 112, 114, 97, 118, 100, 97]], 1, 1⟩,
  ⟨[99, 121], [[46], [44], [58, 61], [60, 45], [91, 39], [39, 93], [46], [44], [111, 119, 110], [118, 97, 114]], 58,
    [[82, 104, 101, 115, 116, 114], [110, 101, 119, 121, 100, 100], [8592], [77, 97, 112], [114, 104, 111, 105], [121, 110], [68, 105, 109], [71, 119, 105, 114], [65, 110, 103, 104, 121, 119, 105, 114]], 1, 1⟩,
  ⟨[100, 97], [[46], [44], [58, 61], [60, 45], [91, 39], [39, 93], [46], [44], [111, 119, 110], [118, 97, 114]], 58,
    [[82, 230, 107, 107, 101], [110, 121], [8592], [76, 105, 115, 116, 101], [115, 230, 116, 116, 101], [112, 229], [84, 248, 109, 109, 101], [82, 105, 103, 116, 105, 103, 116], [70, 97, 108, 115, 107]], 1, 1⟩,
  ⟨[100, 101], [[46], [44], [58, 61], [60, 45], [91, 39], [39, 93], [46], [44], [111, 119, 110], [118, 97, 114]], 58,
    [[83, 101, 114, 105, 101], [110, 101, 117], [8592], [76, 105, 115, 116, 101], [115, 101, 116, 122, 101, 110], [97, 117, 102], [78, 105, 99, 104, 116, 115], [74, 97], [78, 101, 105, 110]], 1, 1⟩,
  ⟨[101, 108], [[46], [44], [58, 61], [60, 45], [91, 39], [39, 93], [46], [44], [111, 119, 110], [118, 97, 114]], 58,
    [[931, 949, 953, 961, 940], [957, 941, 959, 962], [8592], [923, 943, 963, 964, 945], [946, 940, 955, 964, 949], [963, 964, 951, 45, 948, 953, 949, 973, 952, 965, 957, 963, 951], [924, 951, 948, 941, 957], [913, 955, 951, 952, 942, 962], [936, 949, 965, 948, 942, 962]], 1, 1⟩,
  ⟨[101, 110], [[46], [44], [58, 61], [60, 45], [91, 39], [39, 93], [44], [46], [111, 119, 110], [62, 62]], 58,
    [[83, 101, 113, 117, 101, 110, 99, 101], [110, 101, 119], [8592], [76, 105, 115, 116], [112, 117, 116], [97, 116], [78, 111, 110, 101], [84, 114, 117, 101], [70, 97, 108, 115, 101]], 1, 1⟩,
  ⟨[101, 115], [[46], [44], [58, 61], [60, 45], [91, 39], [39, 93], [46], [44], [109, 105], [62, 62]], 58,
    [[83, 101, 114, 105, 101], [110, 117, 101, 118, 111], [8592], [76, 105, 115, 116, 97], [112, 111, 110, 101, 114], [101, 110], [78, 117, 108, 111], [86, 101, 114, 100, 97, 100, 101, 114, 111], [70, 97, 108, 115, 111]], 0, 1⟩,
  ⟨[101, 116], [[46], [44], [58, 61], [60, 45], [91, 39], [39, 93], [46], [44], [111, 119, 110], [118, 97, 114]], 58,
    [[83, 101, 101, 114, 105, 97], [117, 117, 115], [8592], [78, 105, 109, 101, 107, 105, 114, 105], [112, 97, 110, 110, 97], [106, 117, 117, 114, 101, 115], [84, 252, 104, 105], [84, 245, 115, 105], [86, 97, 108, 101]], 1, 1⟩,
  ⟨[101, 117], [[46], [44], [58, 61], [60, 45], [91, 39], [39, 93], [46], [44], [111, 119, 110], [118, 97, 114]], 58,
    [[90, 101, 114, 114, 101, 110, 100, 97], [98, 101, 114, 114, 105, 97, 114, 101, 110], [8592], [77, 97, 112, 97], [106, 97, 114, 114, 105], [101, 110], [69, 122], [69, 103, 105, 97], [70, 97, 108, 116, 115, 117, 97]], 1, 1⟩,
  ⟨[102, 97], [[46], [44], [8788], [8626], [8216], [8217], [46], [44], [9919], [62, 62]], 58,
    [[1604, 1740, 1587, 1578], [1580, 1583, 1740, 1583], [8592], [1606, 1602, 1588, 1607], [1602, 1585, 1575, 1585, 8201, 1583, 1607, 1740, 1583], [1583, 1585], [1606, 1740, 1604], [1583, 1585, 1587, 1578, 8201, 1575, 1587, 1578, 1548, 8201, 1608, 1575, 1602, 1593, 1740], [1594, 1604, 1591]], 1, 1⟩,
  ⟨[102, 105], [[46], [44], [58, 61], [60, 45], [91, 39], [39, 93], [46], [44], [111, 119, 110], [118, 97, 114]], 58,
    [[76, 105, 115, 116, 97], [117, 117, 115, 105], [8592], [75, 97, 114, 116, 116, 97], [108, 97, 105, 116, 97], [111, 115, 111, 105, 116, 116, 101, 101, 115, 115, 97], [78, 111, 108, 108, 97], [84, 111, 116, 116, 97], [86, 228, 228, 114, 228]], 1, 1⟩,
  ⟨[102, 114], [[46], [44], [58, 61], [60, 45], [91, 39], [39, 93], [46], [44], [111, 119, 110], [118, 97, 114]], 58,
    [[83, 233, 114, 105, 101], [110, 111, 117, 118, 101, 97, 117], [8592], [76, 105, 115, 116, 101], [109, 101, 116, 116, 114, 101], [224], [82, 105, 101, 110], [79, 117, 105], [78, 111, 110]], 1, 1⟩,
  ⟨[103, 97], [[46], [44], [58, 61], [60, 45], [91, 39], [39, 93], [46], [44], [111, 119, 110], [118, 97, 114]], 58,
    [[76, 105, 111, 115, 116, 97], [110, 117, 97], [8592], [76, 233, 97, 114, 115, 99, 225, 105, 108], [112, 117, 116], [97, 116], [78, 105, 97, 108, 97, 115], [70, 237, 111, 114], [66, 114, 233, 97, 103, 97, 99, 104]], 1, 1⟩,
  ⟨[103, 100], [[46], [44], [58, 61], [60, 45], [91, 39], [39, 93], [46], [44], [111, 119, 110], [118, 97, 114]], 58,
    [[76, 105, 111, 115, 116, 97], [249, 114], [8592], [77, 97, 112, 97], [99, 117, 105, 114], [108, 101], [78, 101, 111, 110, 105], [70, 236, 111, 114], [77, 101, 97, 108, 108, 116, 97]], 1, 1⟩,
  ⟨[103, 108], [[46], [44], [58, 61], [60, 45], [91, 39], [39, 93], [46], [44], [111, 119, 110], [118, 97, 114]], 58,
    [[76, 105, 115, 116, 97], [110, 111, 118, 111], [8592], [77, 97, 112, 97], [112, 111, 241, 101, 114], [101, 110], [78, 105, 108], [67, 101, 114, 116, 111], [70, 97, 108, 115, 111]], 1, 1⟩,
  ⟨[103, 117], [[46], [44], [58, 61], [60, 45], [91, 39], [39, 93], [46], [44], [111, 119, 110], [118, 97, 114]], 58,
    [[2709, 2724, 2750, 2736], [2728, 2741, 2753, 2690], [8592], [2735, 2750, 2726, 2752], [2734, 2754, 2709, 2763], [2730, 2736], [2710, 2750, 2738, 2752], [2745, 2750], [2728, 2750]], 1, 1⟩,
  ⟨[104, 97], [[46], [44], [58, 61], [60, 45], [8220], [8221], [46], [44], [111, 119, 110], [118, 97, 114]], 58,
    [[74, 101, 114, 105, 110], [115, 97, 98, 111], [8592], [84, 97, 115, 119, 105, 114, 97], [115, 97, 110, 121, 97], [97], [78, 105, 108], [71, 97, 115, 107, 105, 121, 97, 45, 110, 101], [75, 97, 114, 121, 97]], 1, 1⟩,
  ⟨[104, 97, 119], [[46], [44], [58, 61], [60, 45], [91, 39], [39, 93], [46], [44], [111, 119, 110], [118, 97, 114]], 58,
    [[77, 111, 699, 111], [104, 111, 117], [8592], [80, 97, 112, 97, 45, 105, 110, 111, 97], [119, 97, 105, 104, 111], [109, 97], [78, 97, 117], [75, 363, 112, 111, 110, 111], [72, 111, 699, 111, 108, 97, 104, 97]], 1, 1⟩,
  ⟨[104, 101], [[46], [44], [8788], [8626], [8216], [8217], [46], [44], [9919], [9758]], 58,
    [[1512, 1513, 1497, 1502, 1492], [1495, 1491, 1513], [8592], [1502, 1508, 1492], [1500, 1513, 1497, 1501], [95, 1489], [1488, 1508, 1505], [1504, 1499, 1493, 1503], [1513, 1511, 1512]], 1, 1⟩,
  ⟨[104, 105], [[2404], [44], [58, 61], [60, 45], [91, 39], [39, 93], [44], [46], [111, 119, 110], [118, 97, 114]], 58,
    [[2360, 2370, 2330, 2368], [2344, 2351, 2366], [8592], [2344, 2325, 2381, 2358, 2366], [2352, 2326, 2344, 2366], [2346, 2352], [2325, 2369, 2331, 45, 2344, 2361, 2368, 2306], [2360, 2330], [2309, 2360, 2340, 2381, 2351]], 1, 1⟩,
  ⟨[104, 109, 110], [[46], [44], [58, 61], [60, 45], [91, 39], [39, 93], [46], [44], [111, 119, 110], [118, 97, 114]], 58,
    [[83, 97, 117], [116, 115, 104, 105, 97, 98], [8592], [68, 97, 105, 109, 45, 110, 116, 97, 119, 118, 45, 113, 104, 105, 97], [109, 117, 97, 98], [114, 97, 117], [78, 105, 108], [77, 117, 97, 106, 45, 116, 115, 101, 101, 98], [84, 115, 105, 115, 45, 116, 115, 101, 101, 98]], 1, 1⟩,
  ⟨[104, 114], [[46], [44], [58, 61], [60, 45], [91, 39], [39, 93], [46], [44], [111, 119, 110], [118, 97, 114]], 58,
    [[83, 101, 114, 105, 106, 97], [110, 111, 118, 105], [8592], [80, 111, 112, 105, 115], [115, 116, 97, 118, 105, 116, 105], [110, 97], [78, 105, 353, 116, 97], [68, 97], [78, 101]], 1, 1⟩,
  ⟨[104, 116], [[46], [44], [58, 61], [60, 45], [91, 39], [39, 93], [46], [44], [111, 119, 110], [118, 97, 114]], 58,
    [[76, 105, 115], [110, 111, 117, 118, 111], [8592], [75, 97, 116], [109, 101, 116, 101], [110, 97, 110], [78, 105, 108], [86, 114, 232], [70, 111]], 1, 1⟩,
  ⟨[104, 117], [[46], [44], [58, 61], [60, 45], [91, 39], [39, 93], [46], [44], [111, 119, 110], [118, 97, 114]], 58,
    [[83, 111, 114, 111, 122, 97, 116], [250, 106], [8592], [76, 105, 115, 116, 97], [109, 97, 103, 121, 97, 114, 225, 110], [105, 116, 116], [220, 114, 101, 115], [73, 103, 97, 122], [72, 97, 109, 105, 115]], 1, 1⟩,
  ⟨[104, 121], [[58], [44], [8788], [60, 45], [91, 39], [39, 93], [46], [44], [111, 119, 110], [118, 97, 114]], 46,
    [[1399, 1377, 1408, 1412, 1384], [1398, 1400, 1408], [8592], [1409, 1400, 1410, 1409, 1377, 1391, 1384], [1407, 1377, 1388], [1392, 1377, 1396, 1377, 1408], [1380, 1377, 1407, 1377, 1408, 1391], [1388, 1377, 1406], [1405, 1389, 1377, 1388]], 1, 1⟩,
  ⟨[105, 100], [[46], [44], [58, 61], [60, 45], [91, 39], [39, 93], [46], [44], [111, 119, 110], [118, 97, 114]], 58,
    [[83, 101, 114, 105], [98, 97, 114, 117], [8592], [68, 97, 102, 116, 97, 114], [109, 101, 110, 101, 109, 112, 97, 116, 107, 97, 110], [100, 105], [86, 111, 105, 100], [66, 101, 110, 97, 114], [83, 97, 108, 97, 104]], 1, 1⟩,
  ⟨[105, 103], [[46], [44], [58, 61], [60, 45], [91, 39], [39, 93], [46], [44], [111, 119, 110], [118, 97, 114]], 58,
    [[78, 100, 101, 112, 7909, 116, 97], [111, 104, 117, 114, 117], [8592], [77, 97, 97, 112, 7909], [116, 105, 110, 121, 101], [110, 97], [78, 105, 108], [69, 122, 105, 111, 107, 119, 117], [71, 104, 97]], 1, 1⟩,
  ⟨[105, 115], [[46], [44], [58, 61], [60, 45], [91, 39], [39, 93], [46], [44], [111, 119, 110], [118, 97, 114]], 58,
    [[82, 246, 240], [110, 253, 116, 116], [8592], [76, 105, 115, 116, 105], [115, 101, 116, 116, 117], [237], [84, 243, 109, 116], [83, 97, 116, 116], [82, 97, 110, 103, 116]], 1, 1⟩,
  ⟨[106, 97], [[46], [44], [58, 61], [60, 45], [91, 39], [39, 93], [46], [44], [111, 119, 110], [118, 97, 114]], 58,
    [[12471, 12522, 12540, 12474], [26032, 30528], [8592], [12522, 12473, 12488], [35201, 32032], [20516], [12394, 12375], [26412, 24403], [35492, 12426]], 1, 1⟩,
  ⟨[106, 118], [[46], [44], [58, 61], [60, 45], [91, 39], [39, 93], [46], [44], [111, 119, 110], [118, 97, 114]], 58,
    [[68, 104, 97, 112, 116, 97, 114], [97, 110, 121, 97, 114], [8592], [80, 101, 116, 97], [115, 105, 106, 105, 110, 101], [105, 110, 103], [66, 111, 116, 101, 110], [89, 97], [79, 114, 97]], 1, 1⟩,
  ⟨[107, 107], [[46], [44], [58, 61], [60, 45], [91, 39], [39, 93], [46], [44], [111, 119, 110], [118, 97, 114]], 58,
    [[1058, 1110, 1079, 1110, 1084], [1078, 1072, 1187, 1072], [8592], [1050, 1072, 1088, 1090, 1072], [104, 1099, 1089, 1072, 1085], [111, 1088, 1099, 1085], [69, 1096, 1090, 1077, 1187, 1077], [1056, 1072, 1089], [1046, 1072, 1083, 1171, 1072, 1085]], 1, 1⟩,
  ⟨[107, 109], [[46], [44], [58, 61], [60, 45], [91, 39], [39, 93], [46], [44], [111, 119, 110], [118, 97, 114]], 58,
    [[6036, 6025, 6098, 6023, 6072], [6032, 6098, 6040, 6072], [8592], [6037, 6082, 6035, 6033, 6072], [6026, 6070, 6016, 6091], [6035, 6085], [6035, 6071, 6043], [6038, 6071, 6031], [6040, 6071, 6035, 6038, 6071, 6031]], 1, 1⟩,
  ⟨[107, 110], [[46], [44], [58, 61], [60, 45], [91, 39], [39, 93], [46], [44], [111, 119, 110], [118, 97, 114]], 58,
    [[3242, 3231, 3277, 3231, 3263], [3257, 3274, 3256, 3238, 3265], [8592], [3240, 3221, 3277, 3255, 3270], [3242, 3265, 3231, 3277], [3240, 3250, 3277, 3250, 3263], [3240, 3263, 3250, 3277], [3240, 3263, 3228], [3236, 3242, 3277, 3242, 3265]], 1, 1⟩,
  ⟨[107, 111], [[46], [44], [8788], [8626], [8216], [8217], [46], [44], [9919], [9758]], 58,
    [[47749, 48512], [49352, 47196, 50868], [8592], [51648, 46020], [54801, 54924], [50752], [47924, 54952], [50696], [50500, 45768, 50836]], 1, 1⟩,
  ⟨[107, 117], [[46], [44], [58, 61], [60, 45], [91, 39], [39, 93], [46], [44], [111, 119, 110], [118, 97, 114]], 58,
    [[82, 234, 122, 101, 107], [110, 351, 104], [8592], [76, 238, 115, 116, 101, 121, 101, 107], [100, 97, 110, 238, 110], [108, 105], [86, 97, 108, 97], [69, 114, 234], [78, 97]], 1, 1⟩,
  ⟨[107, 121], [[46], [44], [58, 61], [60, 45], [91, 39], [39, 93], [46], [44], [111, 119, 110], [118, 97, 114]], 58,
    [[1090, 1080, 1079, 1084, 1077], [1078, 1072, 1187, 1099], [8592], [1082, 1072, 1088, 1090, 1072], [1082, 1086, 1081, 1076, 1091], [1101, 1083, 1077], [1041, 1086, 1096, 1090, 1091, 1082], [79, 1086, 1073, 1072], [1046, 1086, 1082]], 1, 1⟩,
  ⟨[108, 98], [[46], [44], [58, 61], [60, 45], [91, 39], [39, 93], [46], [44], [111, 119, 110], [118, 97, 114]], 58,
    [[83, 101, 114, 105, 101], [110, 101, 105], [8592], [76, 235, 115, 99, 104, 116], [115, 101, 116, 122, 101, 110], [98, 101, 105], [69, 105, 100, 101, 108], [82, 105, 99, 104, 116, 101, 103], [70, 97, 108, 115, 99, 104]], 1, 1⟩,
  ⟨[108, 111], [[46], [44], [58, 61], [60, 45], [91, 39], [39, 93], [46], [44], [111, 119, 110], [118, 97, 114]], 58,
    [[3722, 3768, 3732], [3779, 3755, 3745, 3784], [8592], [3749, 3762, 3725, 3722, 3767, 3784], [3779, 3754, 3784], [3735, 3765, 3784], [3738, 3789, 3784, 3745, 3765, 3755, 3725, 3761, 3719], [3778, 3757, 3776, 3716], [3738, 3789, 3784]], 1, 1⟩,
  ⟨[108, 116], [[46], [44], [58, 61], [60, 45], [91, 39], [39, 93], [46], [44], [111, 119, 110], [118, 97, 114]], 58,
    [[83, 261, 114, 97, 353, 97, 115], [110, 97, 117, 106, 97, 115], [8592], [77, 97, 112], [303, 100, 279, 116, 105], [95, 303], [78, 117, 108, 105, 115], [84, 105, 101, 115, 97], [78, 101, 116, 105, 101, 115, 97]], 0, 1⟩,
  ⟨[108, 118], [[46], [44], [58, 61], [60, 45], [91, 39], [39, 93], [46], [44], [111, 119, 110], [118, 97, 114]], 58,
    [[83, 97, 114, 97, 107, 115, 116, 115], [106, 97, 117, 110, 115], [8592], [75, 97, 114, 116, 101], [105, 101, 118, 105, 101, 116, 111, 116], [112, 105, 101], [78, 117, 108, 108, 101], [80, 97, 116, 105, 101, 115, 299, 98, 257], [86, 105, 108, 116, 117, 115]], 1, 1⟩,
  ⟨[109, 103], [[46], [44], [58, 61], [60, 45], [91, 39], [39, 93], [46], [44], [111, 119, 110], [118, 97, 114]], 58,
    [[76, 105, 115, 116], [118, 97, 111, 118, 97, 111], [8592], [77, 97, 112], [104, 97, 109, 101, 116, 114, 97, 107, 97], [97, 109, 105, 110, 39, 93, 110, 121], [78, 105, 108], [77, 97, 114, 105, 110, 97], [68, 105, 115, 111]], 1, 1⟩,
  ⟨[109, 105], [[46], [44], [58, 61], [60, 45], [91, 39], [39, 93], [46], [44], [111, 119, 110], [118, 97, 114]], 58,
    [[82, 97, 117, 112, 97, 112, 97], [104, 111, 117], [8592], [82, 97, 114, 97, 110, 103, 105], [97, 104, 97, 110, 111, 97], [119, 97, 104, 105], [75, 97, 117], [65, 101], [75, 97, 104, 111, 114, 101]], 1, 1⟩,
  ⟨[109, 107], [[46], [44], [58, 61], [60, 45], [91, 39], [39, 93], [46], [44], [111, 119, 110], [118, 97, 114]], 58,
    [[1051, 1080, 1089, 1090, 1072], [1085, 1086, 1074, 1086], [8592], [1050, 1072, 1088, 1090, 1072], [1089, 1090, 1072, 1074, 1080], [1085, 1072], [1053, 1091, 1083, 1072], [1042, 1080, 1089, 1090, 1080, 1085, 1072], [1051, 1072, 1078, 1085, 1080]], 1, 1⟩,
  ⟨[109, 108], [[46], [44], [58, 61], [60, 45], [91, 39], [39, 93], [46], [44], [111, 119, 110], [118, 97, 114]], 58,
    [[3370, 3359, 3405, 3359, 3391, 3349], [3370, 3393, 3364, 3391, 3375, 3364, 3405], [8592], [3374, 3390, 3370, 3405, 3370, 3405], [3381, 3384, 3405, 3364, 3393], [3384, 3405, 3365, 3390, 3368, 3330], [3335, 3378, 3405, 3378], [3382, 3376, 3391, 3375, 3390, 3363, 3405], [3364, 3398, 3377, 3405, 3377, 3390, 3375]], 1, 1⟩,
  ⟨[109, 110], [[46], [44], [58, 61], [60, 45], [91, 39], [39, 93], [46], [44], [111, 119, 110], [118, 97, 114]], 58,
    [[1062, 1091, 1074, 1088, 1072, 1083], [1096, 1080, 1085, 1101], [8592], [1046, 1072, 1075, 1089, 1072, 1072, 1083, 1090], [1086, 1073, 1098, 1077, 1082, 1090], [1073, 1072, 1081, 1088, 1096, 1080, 1083], [1053, 1080, 1083], [1058, 1080, 1081, 1084, 1101, 1101], [1198, 1075, 1199, 1081]], 1, 1⟩,
  ⟨[109, 111], [[46], [44], [58, 61], [60, 45], [91, 39], [39, 93], [46], [44], [111, 119, 110], [118, 97, 114]], 58,
    [[83, 101, 114, 105, 101], [110, 101, 322], [8592], [83, 101, 114, 105, 101, 259], [112, 117, 110, 101], [108, 97], [78, 105, 108], [68, 97], [78, 117]], 1, 1⟩,
  ⟨[109, 114], [[46], [44], [8788], [8626], [8216], [8217], [46], [44], [9919], [9758]], 58,
    [[2351, 2366, 2342, 2368], [2344, 2357, 2368, 2344], [8592], [2344, 2325, 2366, 2358, 2366], [2336, 2375, 2357, 2354, 2375], [2351, 2375, 2341, 2375], [2358, 2370, 2344, 2381, 2351], [2326, 2352, 2375], [2326, 2379, 2335, 2375]], 1, 1⟩,
  ⟨[109, 115], [[46], [44], [58, 61], [60, 45], [91, 39], [39, 93], [46], [44], [111, 119, 110], [118, 97, 114]], 58,
    [[83, 101, 110, 97, 114, 97, 105], [98, 97, 114, 117], [8592], [80, 101, 116, 97], [109, 101, 108, 101, 116, 97, 107, 107, 97, 110], [112, 97, 100, 97], [84, 105, 97, 100, 97], [66, 101, 110, 97, 114], [83, 97, 108, 97, 104]], 1, 1⟩,
  ⟨[109, 116], [[46], [44], [58, 61], [60, 45], [91, 39], [39, 93], [46], [44], [111, 119, 110], [118, 97, 114]], 58,
    [[83, 101, 114, 106, 101], [289, 100, 105, 100], [8592], [76, 105, 115, 116, 97], [116, 112, 111, 289, 289, 105], [102, 105], [78, 105, 108], [86, 101, 114, 117], [70, 97, 108, 122]], 1, 1⟩,
  ⟨[109, 121], [[4171], [44], [58, 61], [60, 45], [91, 39], [39, 93], [46], [44], [111, 119, 110], [118, 97, 114]], 58,
    [[4101, 4142, 4152, 4123, 4142, 4152], [4129, 4126, 4101, 4154], [8592], [4101, 4140, 4123, 4100, 4154, 4152], [4123, 4157, 4158, 4145, 4151], [4126, 4141, 4143, 4151], [4119, 4124, 4140], [4127, 4143, 4112, 4154, 4096, 4146, 4151], [4121, 4127, 4143, 4112, 4154, 4120, 4144, 4152]], 1, 1⟩,
  ⟨[110, 101], [[46], [44], [58, 61], [60, 45], [91, 39], [39, 93], [46], [44], [111, 119, 110], [118, 97, 114]], 58,
    [[2358, 2371, 2329, 2381, 2326, 2354, 2366], [2344, 2351, 2366, 2305], [8592], [2360, 2370, 2330, 2368], [2352, 2366, 2326, 2381, 2344, 2369, 2361, 2379, 2360, 2381], [2350, 2366], [2358, 2370, 2344, 2381, 2351], [2361, 2379], [2331, 2376, 2344]], 1, 1⟩,
  ⟨[110, 108], [[46], [44], [58, 61], [60, 45], [91, 39], [39, 93], [46], [44], [101, 105, 103, 101, 110], [62, 62]], 58,
    [[82, 101, 101, 107, 115], [110, 105, 101, 117, 119], [8592], [76, 105, 106, 115, 116], [122, 101, 116], [98, 105, 106], [78, 105, 101, 116, 115], [74, 97], [78, 101, 101]], 1, 1⟩,
  ⟨[110, 111], [[46], [44], [58, 61], [60, 45], [91, 39], [39, 93], [46], [44], [111, 119, 110], [118, 97, 114]], 58,
    [[82, 97, 100], [110, 121], [8592], [76, 105, 115, 116, 101], [115, 97, 103, 116], [97, 116], [84, 111, 109], [69, 107, 116, 101], [70, 97, 108, 115, 107]], 1, 1⟩,
  ⟨[110, 121], [[46], [44], [58, 61], [60, 45], [91, 39], [39, 93], [46], [44], [111, 119, 110], [118, 97, 114]], 58,
    [[77, 110, 100, 97, 110, 100, 97, 110, 100, 97], [122, 97, 116, 115, 111, 112, 97, 110, 111], [8592], [77, 97, 112], [105, 107, 97, 110, 105], [112, 97], [78, 105, 108], [90, 111, 119, 111, 110, 97], [90, 97, 98, 111, 100, 122, 97]], 1, 1⟩,
  ⟨[111, 114], [[46], [44], [8788], [8626], [8216], [8217], [46], [44], [9919], [9758]], 58,
    [[2852, 2878, 2866, 2879, 2837, 2878], [2856, 2882, 2852, 2856], [8592], [2862, 2878, 2856, 2842, 2879, 2852, 2893, 2864], [2860, 2872, 2893, 2852, 2881], [2872, 2893, 2853, 2878, 2856], [2856, 2879, 2866, 2893], [2872, 2852], [2862, 2879, 2853, 2893, 2911, 2878]], 1, 1⟩,
  ⟨[112, 97], [[46], [44], [58, 61], [60, 45], [91, 39], [39, 93], [46], [44], [111, 119, 110], [118, 97, 114]], 58,
    [[2616, 2626, 2586, 2624], [2600, 2613, 2622, 2562], [8592], [2600, 2581, 2616, 2620, 2622], [2602, 2622], [2596, 2631], [2600, 2624], [2616, 2586, 2625], [2583, 2610, 2596]], 1, 1⟩,
  ⟨[112, 97, 112], [[46], [44], [58, 61], [60, 45], [91, 39], [39, 93], [44], [46], [111, 119, 110], [118, 97, 114]], 58,
    [[83, 232, 116], [110, 111, 116, 105, 115, 105, 97], [8592], [76, 105, 115, 116, 97], [112, 101, 114, 100, 101], [110, 97], [78, 97, 100, 97], [66, 97, 108], [78, 111]], 1, 1⟩,
  ⟨[112, 108], [[46], [44], [58, 61], [60, 45], [91, 39], [39, 93], [46], [44], [111, 119, 110], [118, 97, 114]], 58,
    [[83, 101, 114, 105, 111], [110, 111, 119, 121], [8592], [76, 105, 115, 116, 97], [380, 101], [106, 101, 115, 116], [90, 101, 114, 111], [84, 97, 107], [78, 105, 101]], 1, 1⟩,
  ⟨[112, 115], [[46], [44], [58, 61], [60, 45], [91, 39], [39, 93], [46], [44], [111, 119, 110], [118, 97, 114]], 58,
    [[1604, 1740, 1587, 1578], [1606, 1608, 1740], [8592], [1606, 1602, 1588, 1607], [1604, 1707, 1608, 1604], [1662, 1607], [1606, 1740, 1604], [1585, 1740, 1690, 1578, 1740, 1575], [1594, 1604, 1591]], 1, 1⟩,
  ⟨[112, 116], [[46], [44], [58, 61], [60, 45], [8220], [8221], [46], [44], [111, 119, 110], [118, 97, 114]], 58,
    [[76, 105, 115, 116, 97, 114], [110, 111, 118, 111], [8592], [77, 97, 112, 97], [99, 111, 108, 111, 99, 97, 114], [101, 109], [78, 117, 108, 111], [86, 101, 114, 100, 97, 100, 101, 105, 114, 111], [70, 97, 108, 115, 111]], 1, 1⟩,
  ⟨[112, 116, 95, 98, 114], [[46], [44], [58, 61], [60, 45], [91, 39], [39, 93], [46], [44], [111, 119, 110], [118, 97, 114]], 58,
    [[76, 105, 115, 116, 97, 114], [110, 111, 118, 111], [8592], [77, 97, 112, 97], [99, 111, 108, 111, 99, 97, 114], [101, 109], [78, 117, 108, 111], [86, 101, 114, 100, 97, 100, 101, 105, 114, 111], [70, 97, 108, 115, 111]], 1, 1⟩,
  ⟨[114, 111], [[46], [44], [58, 61], [60, 45], [91, 39], [39, 93], [46], [44], [111, 119, 110], [118, 97, 114]], 58,
    [[76, 105, 115, 116, 259], [99, 114, 101, 97], [8592], [72, 97, 114, 116, 259], [112, 117, 110, 101], [108, 97], [78, 117, 108], [65, 100, 101, 118, 259, 114, 97, 116], [70, 97, 108, 115]], 1, 1⟩,
  ⟨[114, 117], [[46], [44], [58, 61], [60, 45], [91, 39], [39, 93], [46], [44], [1084, 1086, 1081], [1076, 1072, 1090, 1100]], 58,
    [[1057, 1087, 1080, 1089, 1086, 1082], [1085, 1086, 1074, 1099, 1081], [8592], [1050, 1072, 1088, 1090, 1072], [1088, 1072, 1079, 1084, 1077, 1089, 1090, 1080, 1090, 1100], [1074], [1055, 1091, 1089, 1090, 1086, 1081], [1048, 1089, 1090, 1080, 1085, 1072], [1051, 1086, 1078, 1100]], 1, 1⟩,
  ⟨[114, 119], [[46], [44], [58, 61], [60, 45], [91, 39], [39, 93], [46], [44], [111, 119, 110], [118, 97, 114]], 58,
    [[85, 114, 117, 116, 111, 110, 100, 101], [103, 105, 115, 104, 121, 97], [8592], [73, 107, 97, 114, 105, 116, 97], [115, 104, 121, 105, 114, 97], [107, 117, 114, 105], [78, 116, 97, 99, 121, 111], [89, 101, 103, 111], [79, 121, 97]], 1, 1⟩,
  ⟨[115, 100], [[46], [44], [58, 61], [60, 45], [91, 39], [39, 93], [46], [44], [111, 119, 110], [118, 97, 114]], 58,
    [[1587, 1661], [1574, 1608, 1606], [8592], [1602, 1588, 1608], [1705, 1610, 1604], [1578, 1610], [1610, 1604], [1670, 1608], [1608, 1689, 1608]], 0, 0⟩,
  ⟨[115, 105], [[46], [44], [8788], [8626], [8216], [8217], [46], [44], [9919], [9758]], 58,
    [[3517, 3536, 3514, 3538, 3523, 3530, 3501, 3540, 3520], [3505, 3520], [8592], [3523, 3538, 3501, 3538, 3514, 3512], [3520, 3523, 3530, 3501, 3540, 3520], [3523, 3530, 3502, 3535, 3505, 3514], [3505, 3538, 3517, 3530], [3476, 3520, 3530], [3505, 3536, 3501]], 1, 1⟩,
  ⟨[115, 107], [[46], [44], [58, 61], [60, 45], [91, 39], [39, 93], [46], [44], [111, 119, 110], [118, 97, 114]], 58,
    [[90, 111, 122, 110, 97, 109], [110, 111, 118, 253], [8592], [77, 97, 112, 97], [112, 111, 118, 101, 100, 97, 110, 233], [110, 97, 45, 97, 100, 114, 101, 115, 101], [78, 117, 108, 97], [80, 114, 97, 118, 100, 105, 118, 253], [78, 101, 112, 114, 97, 118, 100, 105, 118, 253]], 1, 1⟩,
  ⟨[115, 108], [[46], [44], [58, 61], [60, 45], [91, 39], [39, 93], [46], [44], [111, 119, 110], [118, 97, 114]], 58,
    [[83, 101, 122, 110, 97, 109], [110, 111, 118, 111], [8592], [90, 101, 109, 108, 106, 101, 118, 105, 100], [100, 97, 108], [110, 97], [78, 105, 108], [80, 114, 97, 118], [76, 97, 382, 110, 111]], 1, 1⟩,
  ⟨[115, 109], [[46], [44], [58, 61], [60, 45], [91, 39], [39, 93], [46], [44], [111, 119, 110], [118, 97, 114]], 58,
    [[76, 105, 115, 105], [102, 111, 117], [8592], [70, 97, 699, 97, 102, 97, 110, 117, 97], [116, 117, 699, 117], [105], [78, 105, 108], [70, 97, 97, 109, 97, 111, 110, 105], [83, 101, 115, 101]], 1, 1⟩,
  ⟨[115, 110], [[46], [44], [58, 61], [60, 45], [91, 39], [39, 93], [46], [44], [111, 119, 110], [118, 97, 114]], 58,
    [[82, 111, 110, 100, 101, 100, 122, 101, 114, 111], [110, 121, 111, 119, 97, 110, 105], [8592], [77, 101, 112, 117], [105, 115, 97], [112, 97], [72, 97, 112, 97, 110, 97], [69, 104, 101], [65, 105, 104, 119, 97]], 1, 1⟩,
  ⟨[115, 111], [[46], [44], [58, 61], [60, 45], [91, 39], [39, 93], [46], [44], [111, 119, 110], [118, 97, 114]], 58,
    [[84, 97, 120, 97, 110, 101], [99, 117, 115, 117, 98], [8592], [76, 105, 105, 115, 107, 97], [119, 97, 108, 97, 120], [109, 101, 101, 115, 104, 97, 97, 115], [87, 97, 120, 98, 97], [72, 97, 97], [77, 97, 121, 97]], 1, 1⟩,
  ⟨[115, 113], [[46], [44], [58, 61], [60, 45], [91, 39], [39, 93], [46], [44], [111, 119, 110], [118, 97, 114]], 58,
    [[76, 105, 115, 116, 235], [105, 45, 114, 105], [8592], [72, 97, 114, 116, 235], [118, 235, 110, 235], [110, 235], [90, 101, 114, 111], [73, 45, 118, 235, 114, 116, 101, 116, 235], [73, 45, 114, 114, 101, 109, 235]], 1, 1⟩,
  ⟨[115, 114], [[46], [44], [58, 61], [60, 45], [91, 39], [39, 93], [46], [44], [111, 119, 110], [118, 97, 114]], 58,
    [[1051, 1080, 1089, 1090, 1072], [1053, 1086, 1074, 1072], [8592], [1052, 1072, 1087, 1072], [1087, 1091, 1090], [1072, 1090], [1053, 1091, 1083, 1072], [1048, 1089, 1090, 1080, 1085, 1072], [1051, 1072, 1078, 1085, 1086]], 1, 1⟩,
  ⟨[115, 116], [[46], [44], [58, 61], [60, 45], [91, 39], [39, 93], [46], [44], [111, 119, 110], [118, 97, 114]], 58,
    [[76, 101, 116, 111, 116, 111], [110, 99, 104, 97], [8592], [76, 101, 116, 104, 97, 116, 104, 97, 109, 111], [98, 101, 104, 97], [107, 97], [76, 101, 116, 104, 111], [69, 101], [67, 104, 101]], 1, 1⟩,
  ⟨[115, 117], [[46], [44], [58, 61], [60, 45], [91, 39], [39, 93], [46], [44], [111, 119, 110], [118, 97, 114]], 58,
    [[68, 97, 112, 116, 97, 114], [97, 110, 121, 97, 114], [8592], [80, 101, 116, 97], [110, 101, 109, 112, 97, 116, 107, 101, 117, 110], [100, 105], [78, 105, 108], [76, 101, 114, 101, 115], [80, 97, 108, 115, 117]], 1, 1⟩,
  ⟨[115, 119], [[46], [44], [58, 61], [60, 45], [91, 39], [39, 93], [46], [44], [111, 119, 110], [118, 97, 114]], 58,
    [[77, 115, 117, 114, 117, 114, 117], [109, 112, 121, 97], [8592], [79, 114, 111, 100, 104, 97], [119, 101, 107, 97], [115, 97, 97], [72, 97, 107, 117, 110, 97, 45, 107, 105, 116, 117], [78, 100, 105, 121, 111], [72, 97, 112, 97, 110, 97]], 1, 1⟩,
  ⟨[116, 97], [[46], [44], [58, 61], [60, 45], [91, 39], [39, 93], [46], [44], [111, 119, 110], [118, 97, 114]], 58,
    [[2997, 2992, 3007, 2970, 3016], [2986, 3009, 2980, 3007, 2991, 2980, 3009], [8592], [2986, 2975, 3021, 2975, 3007, 2991, 2994, 3021], [2984, 2965, 2992, 3021, 2980, 3021, 2980, 3009], [2990, 3009, 2980, 2994, 3021], [2997, 3014, 2993, 3009, 2990, 3016], [2953, 2979, 3021, 2990, 3016], [2986, 3018, 2991, 3021]], 1, 1⟩,
  ⟨[116, 101], [[46], [44], [58, 61], [60, 45], [91, 39], [39, 93], [46], [44], [111, 119, 110], [118, 97, 114]], 58,
    [[3100, 3134, 3116, 3135, 3108, 3134], [3093, 3146, 3108, 3149, 3108], [8592], [3118, 3149, 3119, 3134, 3114, 3149], [3098, 3134, 3122, 3137], [3125, 3110, 3149, 3110], [3126, 3138, 3112, 3149, 3119, 3074], [3103, 3149, 3120, 3138], [3108, 3114, 3149, 3114, 3137, 3105, 3137]], 1, 1⟩,
  ⟨[116, 103], [[46], [44], [58, 61], [60, 45], [91, 39], [39, 93], [46], [44], [111, 119, 110], [118, 97, 114]], 58,
    [[1056, 1263, 1081, 1093, 1072, 1090], [1085, 1072, 1074], [8592], [1061, 1072, 1088, 1080, 1090, 1072, 1080], [1075, 1091, 1079, 1086, 1096, 1090, 1072], [1076, 1072, 1088], [1061, 1086, 1083, 1251], [1202, 1072], [1053, 1077]], 1, 1⟩,
  ⟨[116, 104], [[46], [44], [58, 61], [60, 45], [91, 39], [39, 93], [46], [44], [111, 119, 110], [118, 97, 114]], 58,
    [[3594, 3640, 3604], [3651, 3627, 3617, 3656], [8592], [3627, 3609, 3633, 3591, 3626, 3639, 3629, 3637, 3656], [3623, 3634, 3591], [3607, 3637, 3656], [3652, 3617, 3656, 3617, 3637, 3629, 3632, 3652, 3619], [3651, 3594, 3656], [3652, 3617, 3656]], 1, 1⟩,
  ⟨[116, 107], [[46], [44], [58, 61], [60, 45], [91, 39], [39, 93], [46], [44], [111, 119, 110], [118, 97, 114]], 58,
    [[83, 101, 114, 105, 253, 97], [116, 228, 122, 101], [8592], [83, 97, 110, 97, 119], [111, 98, 253, 101, 107, 116], [253, 101, 114, 105], [78, 105, 108], [68, 111, 103, 114, 121], [83, 101, 97, 108, 328, 121, 351]], 1, 1⟩,
  ⟨[116, 108], [[46], [44], [58, 61], [60, 45], [91, 39], [39, 93], [46], [44], [111, 119, 110], [118, 97, 114]], 58,
    [[76, 105, 115, 116, 97, 104, 97, 110], [98, 97, 103, 111], [8592], [77, 97, 112], [105, 108, 97, 103, 97, 121], [115, 97], [87, 97, 108, 97], [79, 111], [72, 105, 110, 100, 105]], 1, 1⟩,
  ⟨[116, 114], [[46], [44], [58, 61], [60, 45], [91, 39], [39, 93], [46], [44], [111, 119, 110], [105, 115, 105, 109]], 58,
    [[68, 105, 122, 105], [121, 101, 110, 105], [8592], [76, 105, 115, 116, 101], [107, 111, 121, 117, 110], [97, 116], [83, 305, 102, 305, 114], [68, 111, 287, 114, 117], [89, 97, 110, 108, 305, 351]], 1, 1⟩,
  ⟨[116, 116], [[46], [44], [58, 61], [60, 45], [91, 39], [39, 93], [46], [44], [111, 119, 110], [118, 97, 114]], 58,
    [[1057, 1077, 1088, 1080, 1103, 1083, 1241, 1088, 1077], [1103, 1187, 1072], [8592], [1048, 1089, 1077, 1084, 1083, 1077, 1082], [1086, 1073, 1098, 1077, 1082, 1090], [1091, 1088, 1099, 1085], [1041, 1091, 1096, 1083, 1099, 1082], [1044, 1257, 1088, 1077, 1089], [1071, 1083, 1075, 1072, 1085]], 1, 1⟩,
  ⟨[117, 103], [[46], [44], [58, 61], [60, 45], [91, 39], [39, 93], [46], [44], [111, 119, 110], [118, 97, 114]], 58,
    [[1578, 1609, 1586, 1609, 1605, 1604, 1609, 1603], [110, 101, 119], [8592], [1582, 1749, 1585, 1609, 1578, 1749], [112, 117, 116], [97, 116], [78, 105, 108], [1578, 1608, 1594, 1585, 1575], [1610, 1575, 1604, 1594, 1575, 1606]], 1, 1⟩,
  ⟨[117, 107], [[46], [44], [8788], [8626], [8216], [8217], [46], [44], [9919], [9758]], 58,
    [[1057, 1087, 1080, 1089, 1086, 1082], [1085, 1086, 1074, 1110], [8592], [1050, 1072, 1088, 1090, 1072], [1087, 1086, 1089, 1090, 1072, 1074, 1080, 1090, 1080], [1091], [1053, 1110, 1083], [1055, 1088, 1072, 1074, 1076, 1072], [1055, 1086, 1084, 1080, 1083, 1082, 1086, 1074, 1080, 1081]], 1, 1⟩,
  ⟨[117, 114], [[46], [44], [58, 61], [60, 45], [91, 39], [39, 93], [46], [44], [111, 119, 110], [118, 97, 114]], 58,
    [[1601, 1729, 1585, 1587, 1578], [1606, 1574, 1740], [8592], [1606, 1602, 1588, 1729], [1672, 1575, 1604], [1662, 1585], [1606, 1740, 1604], [1587, 1670, 45, 1729, 1746], [1580, 1726, 1608, 1657, 1575]], 1, 1⟩,
  ⟨[117, 122], [[46], [44], [58, 61], [60, 45], [91, 39], [39, 93], [46], [44], [111, 119, 110], [118, 97, 114]], 58,
    [[81, 97, 116, 111, 114], [121, 97, 110, 103, 105], [8592], [82, 111, 39, 121, 120, 97, 116], [113, 111, 39, 121, 105, 115, 104], [100, 97], [66, 111, 39, 115, 104], [82, 111, 115, 116], [89, 111, 108, 103, 39, 111, 110]], 1, 1⟩,
  ⟨[118, 105], [[46], [44], [58, 61], [60, 45], [91, 39], [39, 93], [46], [44], [111, 119, 110], [118, 97, 114]], 58,
    [[76, 111, 7841, 116], [109, 7899, 105], [8592], [83, 225, 99, 104], [273, 7863, 116], [116, 7841, 105], [75, 104, 244, 110, 103], [84, 104, 7853, 116], [83, 97, 105]], 1, 1⟩,
  ⟨[120, 51], [[46], [44], [8788], [8626], [8216], [8217], [44], [46], [9919], [9758]], 58,
    [[76, 105, 115, 116], [110, 101, 119], [8592], [77, 97, 112], [112, 117, 116], [97, 116], [78, 105, 108], [84, 114, 117, 101], [70, 97, 108, 115, 101]], 1, 1⟩,
  ⟨[120, 52], [[46], [44], [8788], [8626], [8220], [8221], [46], [44], [9919], [9758]], 58,
    [[82, 101, 101, 107, 115], [110, 105, 101, 117, 119], [8592], [76, 307, 115, 116], [122, 101, 116], [98, 307], [78, 105, 101, 116, 115], [74, 97], [78, 101, 101]], 1, 1⟩,
  ⟨[120, 104], [[46], [44], [58, 61], [60, 45], [91, 39], [39, 93], [46], [44], [111, 119, 110], [118, 97, 114]], 58,
    [[85, 116, 104, 111, 116, 104, 111], [105, 110, 116, 115, 104, 97], [8592], [85, 108, 117, 104, 108, 117], [98, 101, 107, 97], [101], [69, 110, 103, 101, 110, 97, 110, 116, 111], [75, 117, 121, 105, 110, 121, 97, 110, 105], [85, 98, 117, 120, 111, 107, 105]], 1, 1⟩,
  ⟨[120, 120], [[46], [44], [8788], [8626], [8216], [8217], [44], [46], [9919], [9758]], 58,
    [[76, 105, 115, 116], [110, 101, 119], [8592], [77, 97, 112], [112, 117, 116], [97, 116], [78, 105, 108], [84, 114, 117, 101], [70, 97, 108, 115, 101]], 1, 1⟩,
  ⟨[121, 105], [[46], [44], [8788], [8626], [8216], [8217], [46], [44], [9919], [9758]], 58,
    [[1512, 1513, 1497, 1502, 1492], [1504, 1497, 1497, 1463], [8592], [1502, 1488, 1508, 1506], [1513, 1496, 1506, 1500, 1503], [1488, 1497, 1503], [1504, 1497, 1500], [1488, 1502, 1514], [1508, 1488, 1463, 1500, 1513]], 1, 1⟩,
  ⟨[121, 111], [[46], [44], [58, 61], [60, 45], [91, 39], [39, 93], [46], [44], [111, 119, 110], [118, 97, 114]], 58,
    [[74, 97, 114, 97], [116, 117, 110, 116, 117, 110], [8592], [65, 107, 111, 106, 7885], [102, 105], [110, 105, 112, 97], [79, 102, 111], [66, 7865, 7865, 110, 105], [66, 7865, 7865, 107, 7885]], 1, 1⟩,
  ⟨[122, 104, 49], [[46], [44], [58, 61], [60, 45], [8220], [8221], [46], [44], [111, 119, 110], [118, 97, 114]], 58,
    [[31995, 21015], [26032, 30340], [8592], [21015, 34920], [23558], [35774, 32622, 20026], [31354, 34395], [30495, 27491], [20551]], 1, 1⟩,
  ⟨[122, 104, 50], [[12290], [44], [58, 61], [60, 45], [91, 39], [39, 93], [46], [44], [111, 119, 110], [118, 97, 114]], 58,
    [[31995, 21015], [26032, 30340], [8592], [21015, 34920], [25226], [21644], [31354, 34394], [30495, 27491], [20551]], 1, 1⟩,
  ⟨[122, 117], [[46], [44], [58, 61], [60, 45], [91, 39], [39, 93], [46], [44], [111, 119, 110], [118, 97, 114]], 58,
    [[85, 104, 108, 117], [111, 107, 117, 115, 104, 97], [8592], [73, 109, 101, 112, 104, 117], [98, 101, 107, 97], [110, 103, 111], [76, 117, 116, 104, 111], [89, 101, 98, 111], [67, 104, 97]], 1, 1⟩]

theorem solid_enc {d : Dict} {l : List Nat} (h : solid d (enc l) = true) : Solid d (enc l) := by
  simp only [solid, Bool.and_eq_true, decide_eq_true_eq] at h
  obtain ⟨⟨⟨⟨⟨⟨h1, h2⟩, h3⟩, h4⟩, h5⟩, h6⟩, h7⟩ := h
  exact ⟨h1, h2, ⟨_, rfl⟩, h3, h4, h5, h6, h7⟩

theorem Lang.fits_ok {L : Lang} (h : L.fits = true) : Fits L.dict L.names := by
  simp only [Lang.fits, Bool.and_eq_true, Bool.not_eq_true', List.all_eq_true] at h
  obtain ⟨⟨⟨⟨⟨⟨h1, h2⟩, h3⟩, h4⟩, h5⟩, h6⟩, h7⟩ := h
  refine ⟨of_decide_eq_true h1, of_decide_eq_true h2, fun w hw => ?_, of_decide_eq_true h4, h5, h6, of_decide_eq_true h7,
    fun c hc => ?_⟩
  · have key : ∀ i < 9, Solid L.dict (enc (L.words.getD i [])) := fun i hi =>
      solid_enc (h3 _ (List.mem_cons_of_mem _ (List.mem_map.2 ⟨i, List.mem_range.2 hi, rfl⟩)))
    have semi : Solid L.dict (enc [59]) := solid_enc (h3 _ List.mem_cons_self)
    simp only [List.mem_cons, List.not_mem_nil, or_false] at hw
    rcases hw with rfl | rfl | rfl | rfl | rfl | rfl | rfl | rfl | rfl | rfl
    · exact key 0 (by decide)
    · exact key 1 (by decide)
    · exact key 2 (by decide)
    · exact key 3 (by decide)
    · exact key 4 (by decide)
    · exact key 5 (by decide)
    · exact key 6 (by decide)
    · exact key 7 (by decide)
    · exact key 8 (by decide)
    · rw [show semicolon = enc [59] by decide +kernel]
      exact semi
  · rcases List.mem_append.1 hc with hc | hc
    · exact List.eq_of_mem_replicate hc
    · exact List.eq_of_mem_replicate hc

/-- **C75**, the languages: `C75_partial` applies to all languages in the table but Arabic, Czech and Armenian. -/
theorem C75_languages : ∀ L ∈ langs, L.folder ∉ [[97, 114], [99, 115], [104, 121]] → Fits L.dict L.names := by
  intro L hL hn
  have h : langs.all (fun L => L.fits || [[97, 114], [99, 115], [104, 121]].contains L.folder) = true := by decide +kernel
  have := List.all_eq_true.1 h L hL
  rw [Bool.or_eq_true] at this
  rcases this with h | h
  · exact Lang.fits_ok h
  · exact absurd (by simpa using h) hn

/-- English is among them, with the symbols and words used before. -/
example : langs.any (fun L => L.folder == [101, 110] && L.names.seq == englishNames.seq && L.dict.qo == Spec.english.qo) = true := by
  decide +kernel

/-! ## Languages in which reading back fails -/

/-- The words that are written in a language: `CTR_DICT_CODEGEN_ARRAY_NEW`, `_ARRAY_NEW_PUSH`, `_MAP_NEW`, `_MAP_PUT` and
`_MAP_PUT_AT`. -/
def wordsBy (C : List (List Nat)) : Spec.Nest.Words where
  seqNew := enc (C.getD 0 [])
  seqPush := enc (C.getD 1 [])
  mapNew := enc (C.getD 2 [])
  mapPut := enc (C.getD 3 [])
  mapAt := enc (C.getD 4 [])
  opening := [40]
  closing := [41]

/-- Italian, Georgian, Swedish, Yakut and Arabic: the words that are read, the words that are written
(`i18n/{it,ka,sv,yak,ar}/dictionary.h:1-5`), and the address of a value. -/
def odd : List (Lang × List (List Nat) × Nat) := [
  (⟨[105, 116], [[46], [44], [58, 61], [60, 45], [91, 39], [39, 93], [46], [44], [111, 119, 110], [118, 97, 114]], 58,
    [[83, 101, 114, 105, 101], [110, 117, 111, 118, 111], [8592], [69, 108, 101, 110, 99, 111], [109, 101, 116, 116, 101, 114, 101], [97], [90, 101, 114, 111], [86, 101, 114, 111], [70, 97, 108, 115, 111]], 1, 1⟩,
    [[83, 101, 114, 105, 101, 32, 110, 117, 111, 118, 111, 32], [69, 108, 101, 110, 99, 111, 32, 8592, 32], [40, 69, 108, 101, 110, 99, 111, 32, 110, 117, 111, 118, 111, 41, 32], [109, 101, 116, 116, 101, 114, 101, 58], [32, 97, 58]], 30),
  (⟨[107, 97], [[46], [44], [58, 61], [60, 45], [91, 39], [39, 93], [46], [44], [111, 119, 110], [118, 97, 114]], 58,
    [[4321, 4308, 4320, 4312, 4304], [4304, 4334, 4304, 4314, 4312], [8592], [4321, 4312, 4304], [4307, 4304, 4304, 4327, 4308, 4316, 4304], [4304, 4307, 4306, 4312, 4314, 4312], [4304, 4320, 4304, 4324, 4308, 4320, 4312], [4313, 4304, 4320, 4306, 4312], [4328, 4308, 4330, 4307, 4317, 4315, 4304]], 1, 1⟩,
    [[4321, 4308, 4320, 4312, 4304, 32, 4304, 4334, 4304, 4314, 4312, 32], [4321, 4308, 4320, 4312, 4304, 32, 8592, 32], [40, 4321, 4312, 4304, 32, 4304, 4334, 4304, 4314, 4312, 41, 32], [4304, 4307, 4306, 4312, 4314, 4312, 58], [32, 4317, 4305, 4312, 4308, 4325, 4322, 4312, 58]], 32),
  (⟨[115, 118], [[46], [44], [58, 61], [60, 45], [91, 39], [39, 93], [46], [44], [111, 119, 110], [118, 97, 114]], 58,
    [[83, 101, 114, 105, 101], [110, 121], [8592], [76, 105, 115, 116, 97], [115, 228, 116, 116, 97], [118, 105, 100], [84, 246, 109, 109, 97], [83, 97, 110, 110], [70, 97, 108, 115, 107]], 1, 1⟩,
    [[83, 101, 114, 105, 101, 32, 110, 121, 32], [83, 101, 114, 105, 101, 32, 8592, 32], [40, 76, 105, 115, 116, 97, 32, 110, 121, 41, 32], [115, 228, 116, 116, 97], [32, 118, 105, 100, 58]], 32),
  (⟨[121, 97, 107], [[46], [44], [58, 61], [60, 45], [171], [187], [46], [44], [111, 119, 110], [118, 97, 114]], 58,
    [[1048, 1089, 1087, 1080, 1080, 1211, 1101, 1082], [1089, 1072, 1189, 1072], [8592], [1050, 1072, 1088, 1090, 1072], [1086, 1083, 1086, 1086, 1093, 1089, 1091, 1081], [1074], [1050, 1091, 1088, 1072, 1072, 1085, 1072, 1093], [1076, 1072, 1072], [1089, 1091, 1086, 1093]], 1, 1⟩,
    [[1048, 1089, 1087, 1080, 1080, 1211, 1101, 1082, 32, 1089, 1072, 1189, 1072, 32], [1048, 1089, 1087, 1080, 1080, 1211, 1101, 1082, 32, 8592, 32], [40, 1050, 1072, 1088, 1090, 1072, 32, 1089, 1072, 1189, 1072, 41, 32], [1086, 1083, 1086, 1093, 1089, 1091, 1081, 58], [32, 1074, 58]], 32),
  (⟨[97, 114], [[46], [1548], [58, 61], [60, 45], [91, 39], [39, 93], [46], [44], [111, 119, 110], [118, 97, 114]], 58,
    [[1602, 1575, 1574, 1605, 1577], [1580, 1583, 1610, 1583], [8592], [1582, 1585, 1610, 1591, 1577], [1590, 1593], [1601, 1610], [1601, 1575, 1585, 1594, 1577], [1606, 1593, 1605], [1604, 1575]], 1, 1⟩,
    [[1602, 1575, 1574, 1605, 1577, 32, 1580, 1583, 1610, 1583, 32], [1602, 1575, 1574, 1605, 1577, 32, 8592, 32], [40, 1582, 1585, 1610, 1591, 1577, 32, 1580, 1583, 1610, 1583, 41, 32], [1590, 1593, 58], [32, 1601, 1610, 58]], 33)]

/-- A sequence with the number 1, that number, a list with it as its only entry, a list with two entries. -/
def simple : List Obj :=
  [{ val := .arr [31], link := some arrP }, { val := .num 1, link := some numP },
    { val := .obj, link := some 20, props := [(nm [97], 31)] }, { val := .obj, link := some 20, props := [(nm [97], 31), (nm [98], 31)] }]

/-- What the value at an address is written as. -/
def writtenAs (p : Lang × List (List Nat) × Nat) : Option (List UInt8) :=
  (codeOf (wordsBy p.2.1) (view p.1.dict un p.1.names 20 (state p.1.dict p.1.names simple).obj) 201 p.2.2 Model.Nest.init).map (·.1)

/-- **C75 does not hold in five languages**: in Italian a sequence, in Georgian, Swedish and Yakut a list, in Arabic a list with
two entries is written down as a text that is read back as Nil, without an error. -/
theorem C75_languages_violated : ∀ p ∈ odd, p.2.2 ≠ nilO ∧ ∃ t s', writtenAs p = some t ∧
    Props.ReadBack.read p.1.dict 34
      (state p.1.dict p.1.names (simple ++ [{ val := .str (nm t), link := some strP }])) = .ok (s', nilO) ∧ s'.flow = none := by
  intro p hp
  have h : odd.all (fun p => p.2.2 != nilO && match writtenAs p with
    | none => false
    | some t => ends (Props.ReadBack.read p.1.dict 34
        (state p.1.dict p.1.names (simple ++ [{ val := .str (nm t), link := some strP }])))
        (fun s' j => j == nilO && s'.flow.isNone)) = true := by decide +kernel
  have := List.all_eq_true.1 h p hp
  rw [Bool.and_eq_true, bne_iff_ne] at this
  refine ⟨this.1, ?_⟩
  cases hw : writtenAs p with
  | none => rw [hw] at this; simp at this
  | some t =>
    rw [hw] at this
    obtain ⟨s', j, h1, h2⟩ := of_ends this.2
    simp only [Bool.and_eq_true, beq_iff_eq, Option.isNone_iff_eq_none] at h2
    exact ⟨t, s', rfl, by rw [h1, h2.1], h2.2⟩

example : odd.length = 5 := rfl

end Verif.Props.ReadBack
