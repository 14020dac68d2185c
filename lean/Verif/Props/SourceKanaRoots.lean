import Verif.Props.SourceRead
import Verif.Model.KanaTreeText
import Verif.Model.KanaTreeData
/-! # C120: the root transitions of the kana tree, one by one (generated by tools/gen_source_text.py) -/

namespace WanaKana.C120
open WanaKana Spec C119

set_option maxRecDepth 100000

theorem kana_root000 : rootTokens kanaText000 =
    some (kPairSource kanaRoot000.1 kanaRoot000.2) := by read_root kanaText000
theorem kana_root001 : rootTokens kanaText001 =
    some (kPairSource kanaRoot001.1 kanaRoot001.2) := by read_root kanaText001
theorem kana_root002 : rootTokens kanaText002 =
    some (kPairSource kanaRoot002.1 kanaRoot002.2) := by read_root kanaText002
theorem kana_root003 : rootTokens kanaText003 =
    some (kPairSource kanaRoot003.1 kanaRoot003.2) := by read_root kanaText003
theorem kana_root004 : rootTokens kanaText004 =
    some (kPairSource kanaRoot004.1 kanaRoot004.2) := by read_root kanaText004
theorem kana_root005 : rootTokens kanaText005 =
    some (kPairSource kanaRoot005.1 kanaRoot005.2) := by read_root kanaText005
theorem kana_root006 : rootTokens kanaText006 =
    some (kPairSource kanaRoot006.1 kanaRoot006.2) := by read_root kanaText006
theorem kana_root007 : rootTokens kanaText007 =
    some (kPairSource kanaRoot007.1 kanaRoot007.2) := by read_root kanaText007
theorem kana_root008 : rootTokens kanaText008 =
    some (kPairSource kanaRoot008.1 kanaRoot008.2) := by read_root kanaText008
theorem kana_root009 : rootTokens kanaText009 =
    some (kPairSource kanaRoot009.1 kanaRoot009.2) := by read_root kanaText009
theorem kana_root010 : rootTokens kanaText010 =
    some (kPairSource kanaRoot010.1 kanaRoot010.2) := by read_root kanaText010
theorem kana_root011 : rootTokens kanaText011 =
    some (kPairSource kanaRoot011.1 kanaRoot011.2) := by read_root kanaText011
theorem kana_root012 : rootTokens kanaText012 =
    some (kPairSource kanaRoot012.1 kanaRoot012.2) := by read_root kanaText012
theorem kana_root013 : rootTokens kanaText013 =
    some (kPairSource kanaRoot013.1 kanaRoot013.2) := by read_root kanaText013
theorem kana_root014 : rootTokens kanaText014 =
    some (kPairSource kanaRoot014.1 kanaRoot014.2) := by read_root kanaText014
theorem kana_root015 : rootTokens kanaText015 =
    some (kPairSource kanaRoot015.1 kanaRoot015.2) := by read_root kanaText015
theorem kana_root016 : rootTokens kanaText016 =
    some (kPairSource kanaRoot016.1 kanaRoot016.2) := by read_root kanaText016
theorem kana_root017 : rootTokens kanaText017 =
    some (kPairSource kanaRoot017.1 kanaRoot017.2) := by read_root kanaText017
theorem kana_root018 : rootTokens kanaText018 =
    some (kPairSource kanaRoot018.1 kanaRoot018.2) := by read_root kanaText018
theorem kana_root019 : rootTokens kanaText019 =
    some (kPairSource kanaRoot019.1 kanaRoot019.2) := by read_root kanaText019
theorem kana_root020 : rootTokens kanaText020 =
    some (kPairSource kanaRoot020.1 kanaRoot020.2) := by read_root kanaText020
theorem kana_root021 : rootTokens kanaText021 =
    some (kPairSource kanaRoot021.1 kanaRoot021.2) := by read_root kanaText021
theorem kana_root022 : rootTokens kanaText022 =
    some (kPairSource kanaRoot022.1 kanaRoot022.2) := by read_root kanaText022
theorem kana_root023 : rootTokens kanaText023 =
    some (kPairSource kanaRoot023.1 kanaRoot023.2) := by read_root kanaText023
theorem kana_root024 : rootTokens kanaText024 =
    some (kPairSource kanaRoot024.1 kanaRoot024.2) := by read_root kanaText024
theorem kana_root025 : rootTokens kanaText025 =
    some (kPairSource kanaRoot025.1 kanaRoot025.2) := by read_root kanaText025
theorem kana_root026 : rootTokens kanaText026 =
    some (kPairSource kanaRoot026.1 kanaRoot026.2) := by read_root kanaText026
theorem kana_root027 : rootTokens kanaText027 =
    some (kPairSource kanaRoot027.1 kanaRoot027.2) := by read_root kanaText027
theorem kana_root028 : rootTokens kanaText028 =
    some (kPairSource kanaRoot028.1 kanaRoot028.2) := by read_root kanaText028
theorem kana_root029 : rootTokens kanaText029 =
    some (kPairSource kanaRoot029.1 kanaRoot029.2) := by read_root kanaText029
theorem kana_root030 : rootTokens kanaText030 =
    some (kPairSource kanaRoot030.1 kanaRoot030.2) := by read_root kanaText030
theorem kana_root031 : rootTokens kanaText031 =
    some (kPairSource kanaRoot031.1 kanaRoot031.2) := by read_root kanaText031
theorem kana_root032 : rootTokens kanaText032 =
    some (kPairSource kanaRoot032.1 kanaRoot032.2) := by read_root kanaText032
theorem kana_root033 : rootTokens kanaText033 =
    some (kPairSource kanaRoot033.1 kanaRoot033.2) := by read_root kanaText033
theorem kana_root034 : rootTokens kanaText034 =
    some (kPairSource kanaRoot034.1 kanaRoot034.2) := by read_root kanaText034
theorem kana_root035 : rootTokens kanaText035 =
    some (kPairSource kanaRoot035.1 kanaRoot035.2) := by read_root kanaText035
theorem kana_root036 : rootTokens kanaText036 =
    some (kPairSource kanaRoot036.1 kanaRoot036.2) := by read_root kanaText036
theorem kana_root037 : rootTokens kanaText037 =
    some (kPairSource kanaRoot037.1 kanaRoot037.2) := by read_root kanaText037
theorem kana_root038 : rootTokens kanaText038 =
    some (kPairSource kanaRoot038.1 kanaRoot038.2) := by read_root kanaText038
theorem kana_root039 : rootTokens kanaText039 =
    some (kPairSource kanaRoot039.1 kanaRoot039.2) := by read_root kanaText039
theorem kana_root040 : rootTokens kanaText040 =
    some (kPairSource kanaRoot040.1 kanaRoot040.2) := by read_root kanaText040
theorem kana_root041 : rootTokens kanaText041 =
    some (kPairSource kanaRoot041.1 kanaRoot041.2) := by read_root kanaText041
theorem kana_root042 : rootTokens kanaText042 =
    some (kPairSource kanaRoot042.1 kanaRoot042.2) := by read_root kanaText042
theorem kana_root043 : rootTokens kanaText043 =
    some (kPairSource kanaRoot043.1 kanaRoot043.2) := by read_root kanaText043

theorem kana_roots : kanaTexts.map rootTokens = (kSource kanaTransitions).map some := by
  rw [kSource_map]
  simp only [kanaTexts, kanaTransitions, List.map_cons, List.map_nil,
    kana_root000, kana_root001, kana_root002, kana_root003, kana_root004, kana_root005,
    kana_root006, kana_root007, kana_root008, kana_root009, kana_root010, kana_root011,
    kana_root012, kana_root013, kana_root014, kana_root015, kana_root016, kana_root017,
    kana_root018, kana_root019, kana_root020, kana_root021, kana_root022, kana_root023,
    kana_root024, kana_root025, kana_root026, kana_root027, kana_root028, kana_root029,
    kana_root030, kana_root031, kana_root032, kana_root033, kana_root034, kana_root035,
    kana_root036, kana_root037, kana_root038, kana_root039, kana_root040, kana_root041,
    kana_root042, kana_root043]

end WanaKana.C120
