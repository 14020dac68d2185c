import Verif.Props.SourceRead
import Verif.Model.RomajiTreeText
import Verif.Model.RomajiTreeData
/-! # C120: the root transitions of the romaji tree, one by one (generated by tools/gen_source_text.py) -/

namespace WanaKana.C120
open WanaKana Spec C119

set_option maxRecDepth 100000

theorem romaji_root000 : rootTokens romajiText000 =
    some (rPairSource romajiRoot000.1 romajiRoot000.2) := by read_root romajiText000
theorem romaji_root001 : rootTokens romajiText001 =
    some (rPairSource romajiRoot001.1 romajiRoot001.2) := by read_root romajiText001
theorem romaji_root002 : rootTokens romajiText002 =
    some (rPairSource romajiRoot002.1 romajiRoot002.2) := by read_root romajiText002
theorem romaji_root003 : rootTokens romajiText003 =
    some (rPairSource romajiRoot003.1 romajiRoot003.2) := by read_root romajiText003
theorem romaji_root004 : rootTokens romajiText004 =
    some (rPairSource romajiRoot004.1 romajiRoot004.2) := by read_root romajiText004
theorem romaji_root005 : rootTokens romajiText005 =
    some (rPairSource romajiRoot005.1 romajiRoot005.2) := by read_root romajiText005
theorem romaji_root006 : rootTokens romajiText006 =
    some (rPairSource romajiRoot006.1 romajiRoot006.2) := by read_root romajiText006
theorem romaji_root007 : rootTokens romajiText007 =
    some (rPairSource romajiRoot007.1 romajiRoot007.2) := by read_root romajiText007
theorem romaji_root008 : rootTokens romajiText008 =
    some (rPairSource romajiRoot008.1 romajiRoot008.2) := by read_root romajiText008
theorem romaji_root009 : rootTokens romajiText009 =
    some (rPairSource romajiRoot009.1 romajiRoot009.2) := by read_root romajiText009
theorem romaji_root010 : rootTokens romajiText010 =
    some (rPairSource romajiRoot010.1 romajiRoot010.2) := by read_root romajiText010
theorem romaji_root011 : rootTokens romajiText011 =
    some (rPairSource romajiRoot011.1 romajiRoot011.2) := by read_root romajiText011
theorem romaji_root012 : rootTokens romajiText012 =
    some (rPairSource romajiRoot012.1 romajiRoot012.2) := by read_root romajiText012
theorem romaji_root013 : rootTokens romajiText013 =
    some (rPairSource romajiRoot013.1 romajiRoot013.2) := by read_root romajiText013
theorem romaji_root014 : rootTokens romajiText014 =
    some (rPairSource romajiRoot014.1 romajiRoot014.2) := by read_root romajiText014
theorem romaji_root015 : rootTokens romajiText015 =
    some (rPairSource romajiRoot015.1 romajiRoot015.2) := by read_root romajiText015
theorem romaji_root016 : rootTokens romajiText016 =
    some (rPairSource romajiRoot016.1 romajiRoot016.2) := by read_root romajiText016
theorem romaji_root017 : rootTokens romajiText017 =
    some (rPairSource romajiRoot017.1 romajiRoot017.2) := by read_root romajiText017
theorem romaji_root018 : rootTokens romajiText018 =
    some (rPairSource romajiRoot018.1 romajiRoot018.2) := by read_root romajiText018
theorem romaji_root019 : rootTokens romajiText019 =
    some (rPairSource romajiRoot019.1 romajiRoot019.2) := by read_root romajiText019
theorem romaji_root020 : rootTokens romajiText020 =
    some (rPairSource romajiRoot020.1 romajiRoot020.2) := by read_root romajiText020
theorem romaji_root021 : rootTokens romajiText021 =
    some (rPairSource romajiRoot021.1 romajiRoot021.2) := by read_root romajiText021
theorem romaji_root022 : rootTokens romajiText022 =
    some (rPairSource romajiRoot022.1 romajiRoot022.2) := by read_root romajiText022
theorem romaji_root023 : rootTokens romajiText023 =
    some (rPairSource romajiRoot023.1 romajiRoot023.2) := by read_root romajiText023
theorem romaji_root024 : rootTokens romajiText024 =
    some (rPairSource romajiRoot024.1 romajiRoot024.2) := by read_root romajiText024
theorem romaji_root025 : rootTokens romajiText025 =
    some (rPairSource romajiRoot025.1 romajiRoot025.2) := by read_root romajiText025
theorem romaji_root026 : rootTokens romajiText026 =
    some (rPairSource romajiRoot026.1 romajiRoot026.2) := by read_root romajiText026
theorem romaji_root027 : rootTokens romajiText027 =
    some (rPairSource romajiRoot027.1 romajiRoot027.2) := by read_root romajiText027
theorem romaji_root028 : rootTokens romajiText028 =
    some (rPairSource romajiRoot028.1 romajiRoot028.2) := by read_root romajiText028
theorem romaji_root029 : rootTokens romajiText029 =
    some (rPairSource romajiRoot029.1 romajiRoot029.2) := by read_root romajiText029
theorem romaji_root030 : rootTokens romajiText030 =
    some (rPairSource romajiRoot030.1 romajiRoot030.2) := by read_root romajiText030
theorem romaji_root031 : rootTokens romajiText031 =
    some (rPairSource romajiRoot031.1 romajiRoot031.2) := by read_root romajiText031
theorem romaji_root032 : rootTokens romajiText032 =
    some (rPairSource romajiRoot032.1 romajiRoot032.2) := by read_root romajiText032
theorem romaji_root033 : rootTokens romajiText033 =
    some (rPairSource romajiRoot033.1 romajiRoot033.2) := by read_root romajiText033
theorem romaji_root034 : rootTokens romajiText034 =
    some (rPairSource romajiRoot034.1 romajiRoot034.2) := by read_root romajiText034
theorem romaji_root035 : rootTokens romajiText035 =
    some (rPairSource romajiRoot035.1 romajiRoot035.2) := by read_root romajiText035
theorem romaji_root036 : rootTokens romajiText036 =
    some (rPairSource romajiRoot036.1 romajiRoot036.2) := by read_root romajiText036
theorem romaji_root037 : rootTokens romajiText037 =
    some (rPairSource romajiRoot037.1 romajiRoot037.2) := by read_root romajiText037
theorem romaji_root038 : rootTokens romajiText038 =
    some (rPairSource romajiRoot038.1 romajiRoot038.2) := by read_root romajiText038
theorem romaji_root039 : rootTokens romajiText039 =
    some (rPairSource romajiRoot039.1 romajiRoot039.2) := by read_root romajiText039
theorem romaji_root040 : rootTokens romajiText040 =
    some (rPairSource romajiRoot040.1 romajiRoot040.2) := by read_root romajiText040
theorem romaji_root041 : rootTokens romajiText041 =
    some (rPairSource romajiRoot041.1 romajiRoot041.2) := by read_root romajiText041
theorem romaji_root042 : rootTokens romajiText042 =
    some (rPairSource romajiRoot042.1 romajiRoot042.2) := by read_root romajiText042
theorem romaji_root043 : rootTokens romajiText043 =
    some (rPairSource romajiRoot043.1 romajiRoot043.2) := by read_root romajiText043
theorem romaji_root044 : rootTokens romajiText044 =
    some (rPairSource romajiRoot044.1 romajiRoot044.2) := by read_root romajiText044
theorem romaji_root045 : rootTokens romajiText045 =
    some (rPairSource romajiRoot045.1 romajiRoot045.2) := by read_root romajiText045
theorem romaji_root046 : rootTokens romajiText046 =
    some (rPairSource romajiRoot046.1 romajiRoot046.2) := by read_root romajiText046
theorem romaji_root047 : rootTokens romajiText047 =
    some (rPairSource romajiRoot047.1 romajiRoot047.2) := by read_root romajiText047
theorem romaji_root048 : rootTokens romajiText048 =
    some (rPairSource romajiRoot048.1 romajiRoot048.2) := by read_root romajiText048
theorem romaji_root049 : rootTokens romajiText049 =
    some (rPairSource romajiRoot049.1 romajiRoot049.2) := by read_root romajiText049
theorem romaji_root050 : rootTokens romajiText050 =
    some (rPairSource romajiRoot050.1 romajiRoot050.2) := by read_root romajiText050
theorem romaji_root051 : rootTokens romajiText051 =
    some (rPairSource romajiRoot051.1 romajiRoot051.2) := by read_root romajiText051
theorem romaji_root052 : rootTokens romajiText052 =
    some (rPairSource romajiRoot052.1 romajiRoot052.2) := by read_root romajiText052
theorem romaji_root053 : rootTokens romajiText053 =
    some (rPairSource romajiRoot053.1 romajiRoot053.2) := by read_root romajiText053
theorem romaji_root054 : rootTokens romajiText054 =
    some (rPairSource romajiRoot054.1 romajiRoot054.2) := by read_root romajiText054
theorem romaji_root055 : rootTokens romajiText055 =
    some (rPairSource romajiRoot055.1 romajiRoot055.2) := by read_root romajiText055
theorem romaji_root056 : rootTokens romajiText056 =
    some (rPairSource romajiRoot056.1 romajiRoot056.2) := by read_root romajiText056
theorem romaji_root057 : rootTokens romajiText057 =
    some (rPairSource romajiRoot057.1 romajiRoot057.2) := by read_root romajiText057
theorem romaji_root058 : rootTokens romajiText058 =
    some (rPairSource romajiRoot058.1 romajiRoot058.2) := by read_root romajiText058
theorem romaji_root059 : rootTokens romajiText059 =
    some (rPairSource romajiRoot059.1 romajiRoot059.2) := by read_root romajiText059
theorem romaji_root060 : rootTokens romajiText060 =
    some (rPairSource romajiRoot060.1 romajiRoot060.2) := by read_root romajiText060
theorem romaji_root061 : rootTokens romajiText061 =
    some (rPairSource romajiRoot061.1 romajiRoot061.2) := by read_root romajiText061
theorem romaji_root062 : rootTokens romajiText062 =
    some (rPairSource romajiRoot062.1 romajiRoot062.2) := by read_root romajiText062
theorem romaji_root063 : rootTokens romajiText063 =
    some (rPairSource romajiRoot063.1 romajiRoot063.2) := by read_root romajiText063
theorem romaji_root064 : rootTokens romajiText064 =
    some (rPairSource romajiRoot064.1 romajiRoot064.2) := by read_root romajiText064
theorem romaji_root065 : rootTokens romajiText065 =
    some (rPairSource romajiRoot065.1 romajiRoot065.2) := by read_root romajiText065
theorem romaji_root066 : rootTokens romajiText066 =
    some (rPairSource romajiRoot066.1 romajiRoot066.2) := by read_root romajiText066
theorem romaji_root067 : rootTokens romajiText067 =
    some (rPairSource romajiRoot067.1 romajiRoot067.2) := by read_root romajiText067
theorem romaji_root068 : rootTokens romajiText068 =
    some (rPairSource romajiRoot068.1 romajiRoot068.2) := by read_root romajiText068
theorem romaji_root069 : rootTokens romajiText069 =
    some (rPairSource romajiRoot069.1 romajiRoot069.2) := by read_root romajiText069
theorem romaji_root070 : rootTokens romajiText070 =
    some (rPairSource romajiRoot070.1 romajiRoot070.2) := by read_root romajiText070
theorem romaji_root071 : rootTokens romajiText071 =
    some (rPairSource romajiRoot071.1 romajiRoot071.2) := by read_root romajiText071
theorem romaji_root072 : rootTokens romajiText072 =
    some (rPairSource romajiRoot072.1 romajiRoot072.2) := by read_root romajiText072
theorem romaji_root073 : rootTokens romajiText073 =
    some (rPairSource romajiRoot073.1 romajiRoot073.2) := by read_root romajiText073
theorem romaji_root074 : rootTokens romajiText074 =
    some (rPairSource romajiRoot074.1 romajiRoot074.2) := by read_root romajiText074
theorem romaji_root075 : rootTokens romajiText075 =
    some (rPairSource romajiRoot075.1 romajiRoot075.2) := by read_root romajiText075
theorem romaji_root076 : rootTokens romajiText076 =
    some (rPairSource romajiRoot076.1 romajiRoot076.2) := by read_root romajiText076
theorem romaji_root077 : rootTokens romajiText077 =
    some (rPairSource romajiRoot077.1 romajiRoot077.2) := by read_root romajiText077
theorem romaji_root078 : rootTokens romajiText078 =
    some (rPairSource romajiRoot078.1 romajiRoot078.2) := by read_root romajiText078
theorem romaji_root079 : rootTokens romajiText079 =
    some (rPairSource romajiRoot079.1 romajiRoot079.2) := by read_root romajiText079
theorem romaji_root080 : rootTokens romajiText080 =
    some (rPairSource romajiRoot080.1 romajiRoot080.2) := by read_root romajiText080
theorem romaji_root081 : rootTokens romajiText081 =
    some (rPairSource romajiRoot081.1 romajiRoot081.2) := by read_root romajiText081
theorem romaji_root082 : rootTokens romajiText082 =
    some (rPairSource romajiRoot082.1 romajiRoot082.2) := by read_root romajiText082
theorem romaji_root083 : rootTokens romajiText083 =
    some (rPairSource romajiRoot083.1 romajiRoot083.2) := by read_root romajiText083
theorem romaji_root084 : rootTokens romajiText084 =
    some (rPairSource romajiRoot084.1 romajiRoot084.2) := by read_root romajiText084
theorem romaji_root085 : rootTokens romajiText085 =
    some (rPairSource romajiRoot085.1 romajiRoot085.2) := by read_root romajiText085
theorem romaji_root086 : rootTokens romajiText086 =
    some (rPairSource romajiRoot086.1 romajiRoot086.2) := by read_root romajiText086
theorem romaji_root087 : rootTokens romajiText087 =
    some (rPairSource romajiRoot087.1 romajiRoot087.2) := by read_root romajiText087
theorem romaji_root088 : rootTokens romajiText088 =
    some (rPairSource romajiRoot088.1 romajiRoot088.2) := by read_root romajiText088
theorem romaji_root089 : rootTokens romajiText089 =
    some (rPairSource romajiRoot089.1 romajiRoot089.2) := by read_root romajiText089
theorem romaji_root090 : rootTokens romajiText090 =
    some (rPairSource romajiRoot090.1 romajiRoot090.2) := by read_root romajiText090
theorem romaji_root091 : rootTokens romajiText091 =
    some (rPairSource romajiRoot091.1 romajiRoot091.2) := by read_root romajiText091
theorem romaji_root092 : rootTokens romajiText092 =
    some (rPairSource romajiRoot092.1 romajiRoot092.2) := by read_root romajiText092
theorem romaji_root093 : rootTokens romajiText093 =
    some (rPairSource romajiRoot093.1 romajiRoot093.2) := by read_root romajiText093
theorem romaji_root094 : rootTokens romajiText094 =
    some (rPairSource romajiRoot094.1 romajiRoot094.2) := by read_root romajiText094
theorem romaji_root095 : rootTokens romajiText095 =
    some (rPairSource romajiRoot095.1 romajiRoot095.2) := by read_root romajiText095
theorem romaji_root096 : rootTokens romajiText096 =
    some (rPairSource romajiRoot096.1 romajiRoot096.2) := by read_root romajiText096
theorem romaji_root097 : rootTokens romajiText097 =
    some (rPairSource romajiRoot097.1 romajiRoot097.2) := by read_root romajiText097
theorem romaji_root098 : rootTokens romajiText098 =
    some (rPairSource romajiRoot098.1 romajiRoot098.2) := by read_root romajiText098
theorem romaji_root099 : rootTokens romajiText099 =
    some (rPairSource romajiRoot099.1 romajiRoot099.2) := by read_root romajiText099
theorem romaji_root100 : rootTokens romajiText100 =
    some (rPairSource romajiRoot100.1 romajiRoot100.2) := by read_root romajiText100
theorem romaji_root101 : rootTokens romajiText101 =
    some (rPairSource romajiRoot101.1 romajiRoot101.2) := by read_root romajiText101
theorem romaji_root102 : rootTokens romajiText102 =
    some (rPairSource romajiRoot102.1 romajiRoot102.2) := by read_root romajiText102
theorem romaji_root103 : rootTokens romajiText103 =
    some (rPairSource romajiRoot103.1 romajiRoot103.2) := by read_root romajiText103
theorem romaji_root104 : rootTokens romajiText104 =
    some (rPairSource romajiRoot104.1 romajiRoot104.2) := by read_root romajiText104
theorem romaji_root105 : rootTokens romajiText105 =
    some (rPairSource romajiRoot105.1 romajiRoot105.2) := by read_root romajiText105
theorem romaji_root106 : rootTokens romajiText106 =
    some (rPairSource romajiRoot106.1 romajiRoot106.2) := by read_root romajiText106
theorem romaji_root107 : rootTokens romajiText107 =
    some (rPairSource romajiRoot107.1 romajiRoot107.2) := by read_root romajiText107

theorem romaji_roots : romajiTexts.map rootTokens = (rSource romajiTransitions).map some := by
  rw [rSource_map]
  simp only [romajiTexts, romajiTransitions, List.map_cons, List.map_nil,
    romaji_root000, romaji_root001, romaji_root002, romaji_root003, romaji_root004, romaji_root005,
    romaji_root006, romaji_root007, romaji_root008, romaji_root009, romaji_root010, romaji_root011,
    romaji_root012, romaji_root013, romaji_root014, romaji_root015, romaji_root016, romaji_root017,
    romaji_root018, romaji_root019, romaji_root020, romaji_root021, romaji_root022, romaji_root023,
    romaji_root024, romaji_root025, romaji_root026, romaji_root027, romaji_root028, romaji_root029,
    romaji_root030, romaji_root031, romaji_root032, romaji_root033, romaji_root034, romaji_root035,
    romaji_root036, romaji_root037, romaji_root038, romaji_root039, romaji_root040, romaji_root041,
    romaji_root042, romaji_root043, romaji_root044, romaji_root045, romaji_root046, romaji_root047,
    romaji_root048, romaji_root049, romaji_root050, romaji_root051, romaji_root052, romaji_root053,
    romaji_root054, romaji_root055, romaji_root056, romaji_root057, romaji_root058, romaji_root059,
    romaji_root060, romaji_root061, romaji_root062, romaji_root063, romaji_root064, romaji_root065,
    romaji_root066, romaji_root067, romaji_root068, romaji_root069, romaji_root070, romaji_root071,
    romaji_root072, romaji_root073, romaji_root074, romaji_root075, romaji_root076, romaji_root077,
    romaji_root078, romaji_root079, romaji_root080, romaji_root081, romaji_root082, romaji_root083,
    romaji_root084, romaji_root085, romaji_root086, romaji_root087, romaji_root088, romaji_root089,
    romaji_root090, romaji_root091, romaji_root092, romaji_root093, romaji_root094, romaji_root095,
    romaji_root096, romaji_root097, romaji_root098, romaji_root099, romaji_root100, romaji_root101,
    romaji_root102, romaji_root103, romaji_root104, romaji_root105, romaji_root106, romaji_root107]

end WanaKana.C120
