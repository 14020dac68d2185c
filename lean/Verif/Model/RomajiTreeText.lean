import Verif.Model.Std
/-! # The text of src/to_romaji_node_tree.rs:44-2674, line by line (copied by tools/gen_source_text.py) -/

namespace WanaKana

/-- src/to_romaji_node_tree.rs:44 -/
def romajiTextFirst : List String :=
  ["        let transitions = Some(vec!["]

/-- src/to_romaji_node_tree.rs:45-51 -/
def romajiText000 : List String :=
  ["            ("
  , "                'ヷ',"
  , "                Node {"
  , "                    transitions: None,"
  , "                    output: \"va\","
  , "                },"
  , "            ),"]

/-- src/to_romaji_node_tree.rs:52-58 -/
def romajiText001 : List String :=
  ["            ("
  , "                '\\u{3000}',"
  , "                Node {"
  , "                    transitions: None,"
  , "                    output: \" \","
  , "                },"
  , "            ),"]

/-- src/to_romaji_node_tree.rs:59-65 -/
def romajiText002 : List String :=
  ["            ("
  , "                '、',"
  , "                Node {"
  , "                    transitions: None,"
  , "                    output: \",\","
  , "                },"
  , "            ),"]

/-- src/to_romaji_node_tree.rs:66-72 -/
def romajiText003 : List String :=
  ["            ("
  , "                '。',"
  , "                Node {"
  , "                    transitions: None,"
  , "                    output: \".\","
  , "                },"
  , "            ),"]

/-- src/to_romaji_node_tree.rs:73-79 -/
def romajiText004 : List String :=
  ["            ("
  , "                '「',"
  , "                Node {"
  , "                    transitions: None,"
  , "                    output: \"‘\","
  , "                },"
  , "            ),"]

/-- src/to_romaji_node_tree.rs:80-86 -/
def romajiText005 : List String :=
  ["            ("
  , "                '」',"
  , "                Node {"
  , "                    transitions: None,"
  , "                    output: \"’\","
  , "                },"
  , "            ),"]

/-- src/to_romaji_node_tree.rs:87-93 -/
def romajiText006 : List String :=
  ["            ("
  , "                '『',"
  , "                Node {"
  , "                    transitions: None,"
  , "                    output: \"“\","
  , "                },"
  , "            ),"]

/-- src/to_romaji_node_tree.rs:94-100 -/
def romajiText007 : List String :=
  ["            ("
  , "                '』',"
  , "                Node {"
  , "                    transitions: None,"
  , "                    output: \"”\","
  , "                },"
  , "            ),"]

/-- src/to_romaji_node_tree.rs:101-107 -/
def romajiText008 : List String :=
  ["            ("
  , "                '〜',"
  , "                Node {"
  , "                    transitions: None,"
  , "                    output: \"~\","
  , "                },"
  , "            ),"]

/-- src/to_romaji_node_tree.rs:108-114 -/
def romajiText009 : List String :=
  ["            ("
  , "                'ぁ',"
  , "                Node {"
  , "                    transitions: None,"
  , "                    output: \"a\","
  , "                },"
  , "            ),"]

/-- src/to_romaji_node_tree.rs:115-121 -/
def romajiText010 : List String :=
  ["            ("
  , "                'あ',"
  , "                Node {"
  , "                    transitions: None,"
  , "                    output: \"a\","
  , "                },"
  , "            ),"]

/-- src/to_romaji_node_tree.rs:122-128 -/
def romajiText011 : List String :=
  ["            ("
  , "                'ぃ',"
  , "                Node {"
  , "                    transitions: None,"
  , "                    output: \"i\","
  , "                },"
  , "            ),"]

/-- src/to_romaji_node_tree.rs:129-135 -/
def romajiText012 : List String :=
  ["            ("
  , "                'い',"
  , "                Node {"
  , "                    transitions: None,"
  , "                    output: \"i\","
  , "                },"
  , "            ),"]

/-- src/to_romaji_node_tree.rs:136-142 -/
def romajiText013 : List String :=
  ["            ("
  , "                'ぅ',"
  , "                Node {"
  , "                    transitions: None,"
  , "                    output: \"u\","
  , "                },"
  , "            ),"]

/-- src/to_romaji_node_tree.rs:143-149 -/
def romajiText014 : List String :=
  ["            ("
  , "                'う',"
  , "                Node {"
  , "                    transitions: None,"
  , "                    output: \"u\","
  , "                },"
  , "            ),"]

/-- src/to_romaji_node_tree.rs:150-156 -/
def romajiText015 : List String :=
  ["            ("
  , "                'ぇ',"
  , "                Node {"
  , "                    transitions: None,"
  , "                    output: \"e\","
  , "                },"
  , "            ),"]

/-- src/to_romaji_node_tree.rs:157-163 -/
def romajiText016 : List String :=
  ["            ("
  , "                'え',"
  , "                Node {"
  , "                    transitions: None,"
  , "                    output: \"e\","
  , "                },"
  , "            ),"]

/-- src/to_romaji_node_tree.rs:164-170 -/
def romajiText017 : List String :=
  ["            ("
  , "                'ぉ',"
  , "                Node {"
  , "                    transitions: None,"
  , "                    output: \"o\","
  , "                },"
  , "            ),"]

/-- src/to_romaji_node_tree.rs:171-177 -/
def romajiText018 : List String :=
  ["            ("
  , "                'お',"
  , "                Node {"
  , "                    transitions: None,"
  , "                    output: \"o\","
  , "                },"
  , "            ),"]

/-- src/to_romaji_node_tree.rs:178-184 -/
def romajiText019 : List String :=
  ["            ("
  , "                'か',"
  , "                Node {"
  , "                    transitions: None,"
  , "                    output: \"ka\","
  , "                },"
  , "            ),"]

/-- src/to_romaji_node_tree.rs:185-191 -/
def romajiText020 : List String :=
  ["            ("
  , "                'が',"
  , "                Node {"
  , "                    transitions: None,"
  , "                    output: \"ga\","
  , "                },"
  , "            ),"]

/-- src/to_romaji_node_tree.rs:192-234 -/
def romajiText021 : List String :=
  ["            ("
  , "                'き',"
  , "                Node {"
  , "                    transitions: Some(vec!["
  , "                        ("
  , "                            'ぃ',"
  , "                            Node {"
  , "                                transitions: None,"
  , "                                output: \"kyi\","
  , "                            },"
  , "                        ),"
  , "                        ("
  , "                            'ぇ',"
  , "                            Node {"
  , "                                transitions: None,"
  , "                                output: \"kye\","
  , "                            },"
  , "                        ),"
  , "                        ("
  , "                            'ゃ',"
  , "                            Node {"
  , "                                transitions: None,"
  , "                                output: \"kya\","
  , "                            },"
  , "                        ),"
  , "                        ("
  , "                            'ゅ',"
  , "                            Node {"
  , "                                transitions: None,"
  , "                                output: \"kyu\","
  , "                            },"
  , "                        ),"
  , "                        ("
  , "                            'ょ',"
  , "                            Node {"
  , "                                transitions: None,"
  , "                                output: \"kyo\","
  , "                            },"
  , "                        ),"
  , "                    ]),"
  , "                    output: \"ki\","
  , "                },"
  , "            ),"]

/-- src/to_romaji_node_tree.rs:235-277 -/
def romajiText022 : List String :=
  ["            ("
  , "                'ぎ',"
  , "                Node {"
  , "                    transitions: Some(vec!["
  , "                        ("
  , "                            'ぃ',"
  , "                            Node {"
  , "                                transitions: None,"
  , "                                output: \"gyi\","
  , "                            },"
  , "                        ),"
  , "                        ("
  , "                            'ぇ',"
  , "                            Node {"
  , "                                transitions: None,"
  , "                                output: \"gye\","
  , "                            },"
  , "                        ),"
  , "                        ("
  , "                            'ゃ',"
  , "                            Node {"
  , "                                transitions: None,"
  , "                                output: \"gya\","
  , "                            },"
  , "                        ),"
  , "                        ("
  , "                            'ゅ',"
  , "                            Node {"
  , "                                transitions: None,"
  , "                                output: \"gyu\","
  , "                            },"
  , "                        ),"
  , "                        ("
  , "                            'ょ',"
  , "                            Node {"
  , "                                transitions: None,"
  , "                                output: \"gyo\","
  , "                            },"
  , "                        ),"
  , "                    ]),"
  , "                    output: \"gi\","
  , "                },"
  , "            ),"]

/-- src/to_romaji_node_tree.rs:278-320 -/
def romajiText023 : List String :=
  ["            ("
  , "                'く',"
  , "                Node {"
  , "                    transitions: Some(vec!["
  , "                        ("
  , "                            'ぃ',"
  , "                            Node {"
  , "                                transitions: None,"
  , "                                output: \"kyi\","
  , "                            },"
  , "                        ),"
  , "                        ("
  , "                            'ぇ',"
  , "                            Node {"
  , "                                transitions: None,"
  , "                                output: \"kye\","
  , "                            },"
  , "                        ),"
  , "                        ("
  , "                            'ゃ',"
  , "                            Node {"
  , "                                transitions: None,"
  , "                                output: \"kya\","
  , "                            },"
  , "                        ),"
  , "                        ("
  , "                            'ゅ',"
  , "                            Node {"
  , "                                transitions: None,"
  , "                                output: \"kyu\","
  , "                            },"
  , "                        ),"
  , "                        ("
  , "                            'ょ',"
  , "                            Node {"
  , "                                transitions: None,"
  , "                                output: \"kyo\","
  , "                            },"
  , "                        ),"
  , "                    ]),"
  , "                    output: \"ku\","
  , "                },"
  , "            ),"]

/-- src/to_romaji_node_tree.rs:321-327 -/
def romajiText024 : List String :=
  ["            ("
  , "                'ぐ',"
  , "                Node {"
  , "                    transitions: None,"
  , "                    output: \"gu\","
  , "                },"
  , "            ),"]

/-- src/to_romaji_node_tree.rs:328-334 -/
def romajiText025 : List String :=
  ["            ("
  , "                'け',"
  , "                Node {"
  , "                    transitions: None,"
  , "                    output: \"ke\","
  , "                },"
  , "            ),"]

/-- src/to_romaji_node_tree.rs:335-341 -/
def romajiText026 : List String :=
  ["            ("
  , "                'げ',"
  , "                Node {"
  , "                    transitions: None,"
  , "                    output: \"ge\","
  , "                },"
  , "            ),"]

/-- src/to_romaji_node_tree.rs:342-348 -/
def romajiText027 : List String :=
  ["            ("
  , "                'こ',"
  , "                Node {"
  , "                    transitions: None,"
  , "                    output: \"ko\","
  , "                },"
  , "            ),"]

/-- src/to_romaji_node_tree.rs:349-355 -/
def romajiText028 : List String :=
  ["            ("
  , "                'ご',"
  , "                Node {"
  , "                    transitions: None,"
  , "                    output: \"go\","
  , "                },"
  , "            ),"]

/-- src/to_romaji_node_tree.rs:356-362 -/
def romajiText029 : List String :=
  ["            ("
  , "                'さ',"
  , "                Node {"
  , "                    transitions: None,"
  , "                    output: \"sa\","
  , "                },"
  , "            ),"]

/-- src/to_romaji_node_tree.rs:363-369 -/
def romajiText030 : List String :=
  ["            ("
  , "                'ざ',"
  , "                Node {"
  , "                    transitions: None,"
  , "                    output: \"za\","
  , "                },"
  , "            ),"]

/-- src/to_romaji_node_tree.rs:370-412 -/
def romajiText031 : List String :=
  ["            ("
  , "                'し',"
  , "                Node {"
  , "                    transitions: Some(vec!["
  , "                        ("
  , "                            'ぃ',"
  , "                            Node {"
  , "                                transitions: None,"
  , "                                output: \"shyi\","
  , "                            },"
  , "                        ),"
  , "                        ("
  , "                            'ぇ',"
  , "                            Node {"
  , "                                transitions: None,"
  , "                                output: \"she\","
  , "                            },"
  , "                        ),"
  , "                        ("
  , "                            'ゃ',"
  , "                            Node {"
  , "                                transitions: None,"
  , "                                output: \"sha\","
  , "                            },"
  , "                        ),"
  , "                        ("
  , "                            'ゅ',"
  , "                            Node {"
  , "                                transitions: None,"
  , "                                output: \"shu\","
  , "                            },"
  , "                        ),"
  , "                        ("
  , "                            'ょ',"
  , "                            Node {"
  , "                                transitions: None,"
  , "                                output: \"sho\","
  , "                            },"
  , "                        ),"
  , "                    ]),"
  , "                    output: \"shi\","
  , "                },"
  , "            ),"]

/-- src/to_romaji_node_tree.rs:413-455 -/
def romajiText032 : List String :=
  ["            ("
  , "                'じ',"
  , "                Node {"
  , "                    transitions: Some(vec!["
  , "                        ("
  , "                            'ぃ',"
  , "                            Node {"
  , "                                transitions: None,"
  , "                                output: \"jyi\","
  , "                            },"
  , "                        ),"
  , "                        ("
  , "                            'ぇ',"
  , "                            Node {"
  , "                                transitions: None,"
  , "                                output: \"je\","
  , "                            },"
  , "                        ),"
  , "                        ("
  , "                            'ゃ',"
  , "                            Node {"
  , "                                transitions: None,"
  , "                                output: \"ja\","
  , "                            },"
  , "                        ),"
  , "                        ("
  , "                            'ゅ',"
  , "                            Node {"
  , "                                transitions: None,"
  , "                                output: \"ju\","
  , "                            },"
  , "                        ),"
  , "                        ("
  , "                            'ょ',"
  , "                            Node {"
  , "                                transitions: None,"
  , "                                output: \"jo\","
  , "                            },"
  , "                        ),"
  , "                    ]),"
  , "                    output: \"ji\","
  , "                },"
  , "            ),"]

/-- src/to_romaji_node_tree.rs:456-462 -/
def romajiText033 : List String :=
  ["            ("
  , "                'す',"
  , "                Node {"
  , "                    transitions: None,"
  , "                    output: \"su\","
  , "                },"
  , "            ),"]

/-- src/to_romaji_node_tree.rs:463-469 -/
def romajiText034 : List String :=
  ["            ("
  , "                'ず',"
  , "                Node {"
  , "                    transitions: None,"
  , "                    output: \"zu\","
  , "                },"
  , "            ),"]

/-- src/to_romaji_node_tree.rs:470-476 -/
def romajiText035 : List String :=
  ["            ("
  , "                'せ',"
  , "                Node {"
  , "                    transitions: None,"
  , "                    output: \"se\","
  , "                },"
  , "            ),"]

/-- src/to_romaji_node_tree.rs:477-483 -/
def romajiText036 : List String :=
  ["            ("
  , "                'ぜ',"
  , "                Node {"
  , "                    transitions: None,"
  , "                    output: \"ze\","
  , "                },"
  , "            ),"]

/-- src/to_romaji_node_tree.rs:484-490 -/
def romajiText037 : List String :=
  ["            ("
  , "                'そ',"
  , "                Node {"
  , "                    transitions: None,"
  , "                    output: \"so\","
  , "                },"
  , "            ),"]

/-- src/to_romaji_node_tree.rs:491-497 -/
def romajiText038 : List String :=
  ["            ("
  , "                'ぞ',"
  , "                Node {"
  , "                    transitions: None,"
  , "                    output: \"zo\","
  , "                },"
  , "            ),"]

/-- src/to_romaji_node_tree.rs:498-504 -/
def romajiText039 : List String :=
  ["            ("
  , "                'た',"
  , "                Node {"
  , "                    transitions: None,"
  , "                    output: \"ta\","
  , "                },"
  , "            ),"]

/-- src/to_romaji_node_tree.rs:505-511 -/
def romajiText040 : List String :=
  ["            ("
  , "                'だ',"
  , "                Node {"
  , "                    transitions: None,"
  , "                    output: \"da\","
  , "                },"
  , "            ),"]

/-- src/to_romaji_node_tree.rs:512-554 -/
def romajiText041 : List String :=
  ["            ("
  , "                'ち',"
  , "                Node {"
  , "                    transitions: Some(vec!["
  , "                        ("
  , "                            'ぃ',"
  , "                            Node {"
  , "                                transitions: None,"
  , "                                output: \"chyi\","
  , "                            },"
  , "                        ),"
  , "                        ("
  , "                            'ぇ',"
  , "                            Node {"
  , "                                transitions: None,"
  , "                                output: \"che\","
  , "                            },"
  , "                        ),"
  , "                        ("
  , "                            'ゃ',"
  , "                            Node {"
  , "                                transitions: None,"
  , "                                output: \"cha\","
  , "                            },"
  , "                        ),"
  , "                        ("
  , "                            'ゅ',"
  , "                            Node {"
  , "                                transitions: None,"
  , "                                output: \"chu\","
  , "                            },"
  , "                        ),"
  , "                        ("
  , "                            'ょ',"
  , "                            Node {"
  , "                                transitions: None,"
  , "                                output: \"cho\","
  , "                            },"
  , "                        ),"
  , "                    ]),"
  , "                    output: \"chi\","
  , "                },"
  , "            ),"]

/-- src/to_romaji_node_tree.rs:555-597 -/
def romajiText042 : List String :=
  ["            ("
  , "                'ぢ',"
  , "                Node {"
  , "                    transitions: Some(vec!["
  , "                        ("
  , "                            'ぃ',"
  , "                            Node {"
  , "                                transitions: None,"
  , "                                output: \"jyi\","
  , "                            },"
  , "                        ),"
  , "                        ("
  , "                            'ぇ',"
  , "                            Node {"
  , "                                transitions: None,"
  , "                                output: \"je\","
  , "                            },"
  , "                        ),"
  , "                        ("
  , "                            'ゃ',"
  , "                            Node {"
  , "                                transitions: None,"
  , "                                output: \"ja\","
  , "                            },"
  , "                        ),"
  , "                        ("
  , "                            'ゅ',"
  , "                            Node {"
  , "                                transitions: None,"
  , "                                output: \"ju\","
  , "                            },"
  , "                        ),"
  , "                        ("
  , "                            'ょ',"
  , "                            Node {"
  , "                                transitions: None,"
  , "                                output: \"jo\","
  , "                            },"
  , "                        ),"
  , "                    ]),"
  , "                    output: \"ji\","
  , "                },"
  , "            ),"]

/-- src/to_romaji_node_tree.rs:598-1880 -/
def romajiText043 : List String :=
  ["            ("
  , "                'っ',"
  , "                Node {"
  , "                    transitions: Some(vec!["
  , "                        ("
  , "                            '\\u{3000}',"
  , "                            Node {"
  , "                                transitions: None,"
  , "                                output: \" \","
  , "                            },"
  , "                        ),"
  , "                        ("
  , "                            '、',"
  , "                            Node {"
  , "                                transitions: None,"
  , "                                output: \",\","
  , "                            },"
  , "                        ),"
  , "                        ("
  , "                            '。',"
  , "                            Node {"
  , "                                transitions: None,"
  , "                                output: \".\","
  , "                            },"
  , "                        ),"
  , "                        ("
  , "                            '「',"
  , "                            Node {"
  , "                                transitions: None,"
  , "                                output: \"‘\","
  , "                            },"
  , "                        ),"
  , "                        ("
  , "                            '」',"
  , "                            Node {"
  , "                                transitions: None,"
  , "                                output: \"’\","
  , "                            },"
  , "                        ),"
  , "                        ("
  , "                            '『',"
  , "                            Node {"
  , "                                transitions: None,"
  , "                                output: \"“\","
  , "                            },"
  , "                        ),"
  , "                        ("
  , "                            '』',"
  , "                            Node {"
  , "                                transitions: None,"
  , "                                output: \"”\","
  , "                            },"
  , "                        ),"
  , "                        ("
  , "                            '〜',"
  , "                            Node {"
  , "                                transitions: None,"
  , "                                output: \"~\","
  , "                            },"
  , "                        ),"
  , "                        ("
  , "                            'ぁ',"
  , "                            Node {"
  , "                                transitions: None,"
  , "                                output: \"a\","
  , "                            },"
  , "                        ),"
  , "                        ("
  , "                            'あ',"
  , "                            Node {"
  , "                                transitions: None,"
  , "                                output: \"a\","
  , "                            },"
  , "                        ),"
  , "                        ("
  , "                            'ぃ',"
  , "                            Node {"
  , "                                transitions: None,"
  , "                                output: \"i\","
  , "                            },"
  , "                        ),"
  , "                        ("
  , "                            'い',"
  , "                            Node {"
  , "                                transitions: None,"
  , "                                output: \"i\","
  , "                            },"
  , "                        ),"
  , "                        ("
  , "                            'ぅ',"
  , "                            Node {"
  , "                                transitions: None,"
  , "                                output: \"u\","
  , "                            },"
  , "                        ),"
  , "                        ("
  , "                            'う',"
  , "                            Node {"
  , "                                transitions: None,"
  , "                                output: \"u\","
  , "                            },"
  , "                        ),"
  , "                        ("
  , "                            'ぇ',"
  , "                            Node {"
  , "                                transitions: None,"
  , "                                output: \"e\","
  , "                            },"
  , "                        ),"
  , "                        ("
  , "                            'え',"
  , "                            Node {"
  , "                                transitions: None,"
  , "                                output: \"e\","
  , "                            },"
  , "                        ),"
  , "                        ("
  , "                            'ぉ',"
  , "                            Node {"
  , "                                transitions: None,"
  , "                                output: \"o\","
  , "                            },"
  , "                        ),"
  , "                        ("
  , "                            'お',"
  , "                            Node {"
  , "                                transitions: None,"
  , "                                output: \"o\","
  , "                            },"
  , "                        ),"
  , "                        ("
  , "                            'か',"
  , "                            Node {"
  , "                                transitions: None,"
  , "                                output: \"kka\","
  , "                            },"
  , "                        ),"
  , "                        ("
  , "                            'が',"
  , "                            Node {"
  , "                                transitions: None,"
  , "                                output: \"gga\","
  , "                            },"
  , "                        ),"
  , "                        ("
  , "                            'き',"
  , "                            Node {"
  , "                                transitions: Some(vec!["
  , "                                    ("
  , "                                        'ぃ',"
  , "                                        Node {"
  , "                                            transitions: None,"
  , "                                            output: \"kkyi\","
  , "                                        },"
  , "                                    ),"
  , "                                    ("
  , "                                        'ぇ',"
  , "                                        Node {"
  , "                                            transitions: None,"
  , "                                            output: \"kkye\","
  , "                                        },"
  , "                                    ),"
  , "                                    ("
  , "                                        'ゃ',"
  , "                                        Node {"
  , "                                            transitions: None,"
  , "                                            output: \"kkya\","
  , "                                        },"
  , "                                    ),"
  , "                                    ("
  , "                                        'ゅ',"
  , "                                        Node {"
  , "                                            transitions: None,"
  , "                                            output: \"kkyu\","
  , "                                        },"
  , "                                    ),"
  , "                                    ("
  , "                                        'ょ',"
  , "                                        Node {"
  , "                                            transitions: None,"
  , "                                            output: \"kkyo\","
  , "                                        },"
  , "                                    ),"
  , "                                ]),"
  , "                                output: \"kki\","
  , "                            },"
  , "                        ),"
  , "                        ("
  , "                            'ぎ',"
  , "                            Node {"
  , "                                transitions: Some(vec!["
  , "                                    ("
  , "                                        'ぃ',"
  , "                                        Node {"
  , "                                            transitions: None,"
  , "                                            output: \"ggyi\","
  , "                                        },"
  , "                                    ),"
  , "                                    ("
  , "                                        'ぇ',"
  , "                                        Node {"
  , "                                            transitions: None,"
  , "                                            output: \"ggye\","
  , "                                        },"
  , "                                    ),"
  , "                                    ("
  , "                                        'ゃ',"
  , "                                        Node {"
  , "                                            transitions: None,"
  , "                                            output: \"ggya\","
  , "                                        },"
  , "                                    ),"
  , "                                    ("
  , "                                        'ゅ',"
  , "                                        Node {"
  , "                                            transitions: None,"
  , "                                            output: \"ggyu\","
  , "                                        },"
  , "                                    ),"
  , "                                    ("
  , "                                        'ょ',"
  , "                                        Node {"
  , "                                            transitions: None,"
  , "                                            output: \"ggyo\","
  , "                                        },"
  , "                                    ),"
  , "                                ]),"
  , "                                output: \"ggi\","
  , "                            },"
  , "                        ),"
  , "                        ("
  , "                            'く',"
  , "                            Node {"
  , "                                transitions: Some(vec!["
  , "                                    ("
  , "                                        'ぃ',"
  , "                                        Node {"
  , "                                            transitions: None,"
  , "                                            output: \"kkyi\","
  , "                                        },"
  , "                                    ),"
  , "                                    ("
  , "                                        'ぇ',"
  , "                                        Node {"
  , "                                            transitions: None,"
  , "                                            output: \"kkye\","
  , "                                        },"
  , "                                    ),"
  , "                                    ("
  , "                                        'ゃ',"
  , "                                        Node {"
  , "                                            transitions: None,"
  , "                                            output: \"kkya\","
  , "                                        },"
  , "                                    ),"
  , "                                    ("
  , "                                        'ゅ',"
  , "                                        Node {"
  , "                                            transitions: None,"
  , "                                            output: \"kkyu\","
  , "                                        },"
  , "                                    ),"
  , "                                    ("
  , "                                        'ょ',"
  , "                                        Node {"
  , "                                            transitions: None,"
  , "                                            output: \"kkyo\","
  , "                                        },"
  , "                                    ),"
  , "                                ]),"
  , "                                output: \"kku\","
  , "                            },"
  , "                        ),"
  , "                        ("
  , "                            'ぐ',"
  , "                            Node {"
  , "                                transitions: None,"
  , "                                output: \"ggu\","
  , "                            },"
  , "                        ),"
  , "                        ("
  , "                            'け',"
  , "                            Node {"
  , "                                transitions: None,"
  , "                                output: \"kke\","
  , "                            },"
  , "                        ),"
  , "                        ("
  , "                            'げ',"
  , "                            Node {"
  , "                                transitions: None,"
  , "                                output: \"gge\","
  , "                            },"
  , "                        ),"
  , "                        ("
  , "                            'こ',"
  , "                            Node {"
  , "                                transitions: None,"
  , "                                output: \"kko\","
  , "                            },"
  , "                        ),"
  , "                        ("
  , "                            'ご',"
  , "                            Node {"
  , "                                transitions: None,"
  , "                                output: \"ggo\","
  , "                            },"
  , "                        ),"
  , "                        ("
  , "                            'さ',"
  , "                            Node {"
  , "                                transitions: None,"
  , "                                output: \"ssa\","
  , "                            },"
  , "                        ),"
  , "                        ("
  , "                            'ざ',"
  , "                            Node {"
  , "                                transitions: None,"
  , "                                output: \"zza\","
  , "                            },"
  , "                        ),"
  , "                        ("
  , "                            'し',"
  , "                            Node {"
  , "                                transitions: Some(vec!["
  , "                                    ("
  , "                                        'ぃ',"
  , "                                        Node {"
  , "                                            transitions: None,"
  , "                                            output: \"sshyi\","
  , "                                        },"
  , "                                    ),"
  , "                                    ("
  , "                                        'ぇ',"
  , "                                        Node {"
  , "                                            transitions: None,"
  , "                                            output: \"sshe\","
  , "                                        },"
  , "                                    ),"
  , "                                    ("
  , "                                        'ゃ',"
  , "                                        Node {"
  , "                                            transitions: None,"
  , "                                            output: \"ssha\","
  , "                                        },"
  , "                                    ),"
  , "                                    ("
  , "                                        'ゅ',"
  , "                                        Node {"
  , "                                            transitions: None,"
  , "                                            output: \"sshu\","
  , "                                        },"
  , "                                    ),"
  , "                                    ("
  , "                                        'ょ',"
  , "                                        Node {"
  , "                                            transitions: None,"
  , "                                            output: \"ssho\","
  , "                                        },"
  , "                                    ),"
  , "                                ]),"
  , "                                output: \"sshi\","
  , "                            },"
  , "                        ),"
  , "                        ("
  , "                            'じ',"
  , "                            Node {"
  , "                                transitions: Some(vec!["
  , "                                    ("
  , "                                        'ぃ',"
  , "                                        Node {"
  , "                                            transitions: None,"
  , "                                            output: \"jjyi\","
  , "                                        },"
  , "                                    ),"
  , "                                    ("
  , "                                        'ぇ',"
  , "                                        Node {"
  , "                                            transitions: None,"
  , "                                            output: \"jje\","
  , "                                        },"
  , "                                    ),"
  , "                                    ("
  , "                                        'ゃ',"
  , "                                        Node {"
  , "                                            transitions: None,"
  , "                                            output: \"jja\","
  , "                                        },"
  , "                                    ),"
  , "                                    ("
  , "                                        'ゅ',"
  , "                                        Node {"
  , "                                            transitions: None,"
  , "                                            output: \"jju\","
  , "                                        },"
  , "                                    ),"
  , "                                    ("
  , "                                        'ょ',"
  , "                                        Node {"
  , "                                            transitions: None,"
  , "                                            output: \"jjo\","
  , "                                        },"
  , "                                    ),"
  , "                                ]),"
  , "                                output: \"jji\","
  , "                            },"
  , "                        ),"
  , "                        ("
  , "                            'す',"
  , "                            Node {"
  , "                                transitions: None,"
  , "                                output: \"ssu\","
  , "                            },"
  , "                        ),"
  , "                        ("
  , "                            'ず',"
  , "                            Node {"
  , "                                transitions: None,"
  , "                                output: \"zzu\","
  , "                            },"
  , "                        ),"
  , "                        ("
  , "                            'せ',"
  , "                            Node {"
  , "                                transitions: None,"
  , "                                output: \"sse\","
  , "                            },"
  , "                        ),"
  , "                        ("
  , "                            'ぜ',"
  , "                            Node {"
  , "                                transitions: None,"
  , "                                output: \"zze\","
  , "                            },"
  , "                        ),"
  , "                        ("
  , "                            'そ',"
  , "                            Node {"
  , "                                transitions: None,"
  , "                                output: \"sso\","
  , "                            },"
  , "                        ),"
  , "                        ("
  , "                            'ぞ',"
  , "                            Node {"
  , "                                transitions: None,"
  , "                                output: \"zzo\","
  , "                            },"
  , "                        ),"
  , "                        ("
  , "                            'た',"
  , "                            Node {"
  , "                                transitions: None,"
  , "                                output: \"tta\","
  , "                            },"
  , "                        ),"
  , "                        ("
  , "                            'だ',"
  , "                            Node {"
  , "                                transitions: None,"
  , "                                output: \"dda\","
  , "                            },"
  , "                        ),"
  , "                        ("
  , "                            'ち',"
  , "                            Node {"
  , "                                transitions: Some(vec!["
  , "                                    ("
  , "                                        'ぃ',"
  , "                                        Node {"
  , "                                            transitions: None,"
  , "                                            output: \"tchyi\","
  , "                                        },"
  , "                                    ),"
  , "                                    ("
  , "                                        'ぇ',"
  , "                                        Node {"
  , "                                            transitions: None,"
  , "                                            output: \"tche\","
  , "                                        },"
  , "                                    ),"
  , "                                    ("
  , "                                        'ゃ',"
  , "                                        Node {"
  , "                                            transitions: None,"
  , "                                            output: \"tcha\","
  , "                                        },"
  , "                                    ),"
  , "                                    ("
  , "                                        'ゅ',"
  , "                                        Node {"
  , "                                            transitions: None,"
  , "                                            output: \"tchu\","
  , "                                        },"
  , "                                    ),"
  , "                                    ("
  , "                                        'ょ',"
  , "                                        Node {"
  , "                                            transitions: None,"
  , "                                            output: \"tcho\","
  , "                                        },"
  , "                                    ),"
  , "                                ]),"
  , "                                output: \"tchi\","
  , "                            },"
  , "                        ),"
  , "                        ("
  , "                            'ぢ',"
  , "                            Node {"
  , "                                transitions: Some(vec!["
  , "                                    ("
  , "                                        'ぃ',"
  , "                                        Node {"
  , "                                            transitions: None,"
  , "                                            output: \"jjyi\","
  , "                                        },"
  , "                                    ),"
  , "                                    ("
  , "                                        'ぇ',"
  , "                                        Node {"
  , "                                            transitions: None,"
  , "                                            output: \"jje\","
  , "                                        },"
  , "                                    ),"
  , "                                    ("
  , "                                        'ゃ',"
  , "                                        Node {"
  , "                                            transitions: None,"
  , "                                            output: \"jja\","
  , "                                        },"
  , "                                    ),"
  , "                                    ("
  , "                                        'ゅ',"
  , "                                        Node {"
  , "                                            transitions: None,"
  , "                                            output: \"jju\","
  , "                                        },"
  , "                                    ),"
  , "                                    ("
  , "                                        'ょ',"
  , "                                        Node {"
  , "                                            transitions: None,"
  , "                                            output: \"jjo\","
  , "                                        },"
  , "                                    ),"
  , "                                ]),"
  , "                                output: \"jji\","
  , "                            },"
  , "                        ),"
  , "                        ("
  , "                            'つ',"
  , "                            Node {"
  , "                                transitions: None,"
  , "                                output: \"ttsu\","
  , "                            },"
  , "                        ),"
  , "                        ("
  , "                            'づ',"
  , "                            Node {"
  , "                                transitions: None,"
  , "                                output: \"zzu\","
  , "                            },"
  , "                        ),"
  , "                        ("
  , "                            'て',"
  , "                            Node {"
  , "                                transitions: None,"
  , "                                output: \"tte\","
  , "                            },"
  , "                        ),"
  , "                        ("
  , "                            'で',"
  , "                            Node {"
  , "                                transitions: None,"
  , "                                output: \"dde\","
  , "                            },"
  , "                        ),"
  , "                        ("
  , "                            'と',"
  , "                            Node {"
  , "                                transitions: None,"
  , "                                output: \"tto\","
  , "                            },"
  , "                        ),"
  , "                        ("
  , "                            'ど',"
  , "                            Node {"
  , "                                transitions: None,"
  , "                                output: \"ddo\","
  , "                            },"
  , "                        ),"
  , "                        ("
  , "                            'な',"
  , "                            Node {"
  , "                                transitions: None,"
  , "                                output: \"na\","
  , "                            },"
  , "                        ),"
  , "                        ("
  , "                            'に',"
  , "                            Node {"
  , "                                transitions: Some(vec!["
  , "                                    ("
  , "                                        'ぃ',"
  , "                                        Node {"
  , "                                            transitions: None,"
  , "                                            output: \"nyi\","
  , "                                        },"
  , "                                    ),"
  , "                                    ("
  , "                                        'ぇ',"
  , "                                        Node {"
  , "                                            transitions: None,"
  , "                                            output: \"nye\","
  , "                                        },"
  , "                                    ),"
  , "                                    ("
  , "                                        'ゃ',"
  , "                                        Node {"
  , "                                            transitions: None,"
  , "                                            output: \"nya\","
  , "                                        },"
  , "                                    ),"
  , "                                    ("
  , "                                        'ゅ',"
  , "                                        Node {"
  , "                                            transitions: None,"
  , "                                            output: \"nyu\","
  , "                                        },"
  , "                                    ),"
  , "                                    ("
  , "                                        'ょ',"
  , "                                        Node {"
  , "                                            transitions: None,"
  , "                                            output: \"nyo\","
  , "                                        },"
  , "                                    ),"
  , "                                ]),"
  , "                                output: \"ni\","
  , "                            },"
  , "                        ),"
  , "                        ("
  , "                            'ぬ',"
  , "                            Node {"
  , "                                transitions: None,"
  , "                                output: \"nu\","
  , "                            },"
  , "                        ),"
  , "                        ("
  , "                            'ね',"
  , "                            Node {"
  , "                                transitions: None,"
  , "                                output: \"ne\","
  , "                            },"
  , "                        ),"
  , "                        ("
  , "                            'の',"
  , "                            Node {"
  , "                                transitions: None,"
  , "                                output: \"no\","
  , "                            },"
  , "                        ),"
  , "                        ("
  , "                            'は',"
  , "                            Node {"
  , "                                transitions: None,"
  , "                                output: \"hha\","
  , "                            },"
  , "                        ),"
  , "                        ("
  , "                            'ば',"
  , "                            Node {"
  , "                                transitions: None,"
  , "                                output: \"bba\","
  , "                            },"
  , "                        ),"
  , "                        ("
  , "                            'ぱ',"
  , "                            Node {"
  , "                                transitions: None,"
  , "                                output: \"ppa\","
  , "                            },"
  , "                        ),"
  , "                        ("
  , "                            'ひ',"
  , "                            Node {"
  , "                                transitions: Some(vec!["
  , "                                    ("
  , "                                        'ぃ',"
  , "                                        Node {"
  , "                                            transitions: None,"
  , "                                            output: \"hhyi\","
  , "                                        },"
  , "                                    ),"
  , "                                    ("
  , "                                        'ぇ',"
  , "                                        Node {"
  , "                                            transitions: None,"
  , "                                            output: \"hhye\","
  , "                                        },"
  , "                                    ),"
  , "                                    ("
  , "                                        'ゃ',"
  , "                                        Node {"
  , "                                            transitions: None,"
  , "                                            output: \"hhya\","
  , "                                        },"
  , "                                    ),"
  , "                                    ("
  , "                                        'ゅ',"
  , "                                        Node {"
  , "                                            transitions: None,"
  , "                                            output: \"hhyu\","
  , "                                        },"
  , "                                    ),"
  , "                                    ("
  , "                                        'ょ',"
  , "                                        Node {"
  , "                                            transitions: None,"
  , "                                            output: \"hhyo\","
  , "                                        },"
  , "                                    ),"
  , "                                ]),"
  , "                                output: \"hhi\","
  , "                            },"
  , "                        ),"
  , "                        ("
  , "                            'び',"
  , "                            Node {"
  , "                                transitions: Some(vec!["
  , "                                    ("
  , "                                        'ぃ',"
  , "                                        Node {"
  , "                                            transitions: None,"
  , "                                            output: \"bbyi\","
  , "                                        },"
  , "                                    ),"
  , "                                    ("
  , "                                        'ぇ',"
  , "                                        Node {"
  , "                                            transitions: None,"
  , "                                            output: \"bbye\","
  , "                                        },"
  , "                                    ),"
  , "                                    ("
  , "                                        'ゃ',"
  , "                                        Node {"
  , "                                            transitions: None,"
  , "                                            output: \"bbya\","
  , "                                        },"
  , "                                    ),"
  , "                                    ("
  , "                                        'ゅ',"
  , "                                        Node {"
  , "                                            transitions: None,"
  , "                                            output: \"bbyu\","
  , "                                        },"
  , "                                    ),"
  , "                                    ("
  , "                                        'ょ',"
  , "                                        Node {"
  , "                                            transitions: None,"
  , "                                            output: \"bbyo\","
  , "                                        },"
  , "                                    ),"
  , "                                ]),"
  , "                                output: \"bbi\","
  , "                            },"
  , "                        ),"
  , "                        ("
  , "                            'ぴ',"
  , "                            Node {"
  , "                                transitions: Some(vec!["
  , "                                    ("
  , "                                        'ぃ',"
  , "                                        Node {"
  , "                                            transitions: None,"
  , "                                            output: \"ppyi\","
  , "                                        },"
  , "                                    ),"
  , "                                    ("
  , "                                        'ぇ',"
  , "                                        Node {"
  , "                                            transitions: None,"
  , "                                            output: \"ppye\","
  , "                                        },"
  , "                                    ),"
  , "                                    ("
  , "                                        'ゃ',"
  , "                                        Node {"
  , "                                            transitions: None,"
  , "                                            output: \"ppya\","
  , "                                        },"
  , "                                    ),"
  , "                                    ("
  , "                                        'ゅ',"
  , "                                        Node {"
  , "                                            transitions: None,"
  , "                                            output: \"ppyu\","
  , "                                        },"
  , "                                    ),"
  , "                                    ("
  , "                                        'ょ',"
  , "                                        Node {"
  , "                                            transitions: None,"
  , "                                            output: \"ppyo\","
  , "                                        },"
  , "                                    ),"
  , "                                ]),"
  , "                                output: \"ppi\","
  , "                            },"
  , "                        ),"
  , "                        ("
  , "                            'ふ',"
  , "                            Node {"
  , "                                transitions: Some(vec!["
  , "                                    ("
  , "                                        'ぃ',"
  , "                                        Node {"
  , "                                            transitions: None,"
  , "                                            output: \"ffyi\","
  , "                                        },"
  , "                                    ),"
  , "                                    ("
  , "                                        'ぇ',"
  , "                                        Node {"
  , "                                            transitions: None,"
  , "                                            output: \"ffye\","
  , "                                        },"
  , "                                    ),"
  , "                                    ("
  , "                                        'ゃ',"
  , "                                        Node {"
  , "                                            transitions: None,"
  , "                                            output: \"ffya\","
  , "                                        },"
  , "                                    ),"
  , "                                    ("
  , "                                        'ゅ',"
  , "                                        Node {"
  , "                                            transitions: None,"
  , "                                            output: \"ffyu\","
  , "                                        },"
  , "                                    ),"
  , "                                    ("
  , "                                        'ょ',"
  , "                                        Node {"
  , "                                            transitions: None,"
  , "                                            output: \"ffyo\","
  , "                                        },"
  , "                                    ),"
  , "                                ]),"
  , "                                output: \"ffu\","
  , "                            },"
  , "                        ),"
  , "                        ("
  , "                            'ぶ',"
  , "                            Node {"
  , "                                transitions: None,"
  , "                                output: \"bbu\","
  , "                            },"
  , "                        ),"
  , "                        ("
  , "                            'ぷ',"
  , "                            Node {"
  , "                                transitions: None,"
  , "                                output: \"ppu\","
  , "                            },"
  , "                        ),"
  , "                        ("
  , "                            'へ',"
  , "                            Node {"
  , "                                transitions: None,"
  , "                                output: \"hhe\","
  , "                            },"
  , "                        ),"
  , "                        ("
  , "                            'べ',"
  , "                            Node {"
  , "                                transitions: None,"
  , "                                output: \"bbe\","
  , "                            },"
  , "                        ),"
  , "                        ("
  , "                            'ぺ',"
  , "                            Node {"
  , "                                transitions: None,"
  , "                                output: \"ppe\","
  , "                            },"
  , "                        ),"
  , "                        ("
  , "                            'ほ',"
  , "                            Node {"
  , "                                transitions: None,"
  , "                                output: \"hho\","
  , "                            },"
  , "                        ),"
  , "                        ("
  , "                            'ぼ',"
  , "                            Node {"
  , "                                transitions: None,"
  , "                                output: \"bbo\","
  , "                            },"
  , "                        ),"
  , "                        ("
  , "                            'ぽ',"
  , "                            Node {"
  , "                                transitions: None,"
  , "                                output: \"ppo\","
  , "                            },"
  , "                        ),"
  , "                        ("
  , "                            'ま',"
  , "                            Node {"
  , "                                transitions: None,"
  , "                                output: \"mma\","
  , "                            },"
  , "                        ),"
  , "                        ("
  , "                            'み',"
  , "                            Node {"
  , "                                transitions: Some(vec!["
  , "                                    ("
  , "                                        'ぃ',"
  , "                                        Node {"
  , "                                            transitions: None,"
  , "                                            output: \"mmyi\","
  , "                                        },"
  , "                                    ),"
  , "                                    ("
  , "                                        'ぇ',"
  , "                                        Node {"
  , "                                            transitions: None,"
  , "                                            output: \"mmye\","
  , "                                        },"
  , "                                    ),"
  , "                                    ("
  , "                                        'ゃ',"
  , "                                        Node {"
  , "                                            transitions: None,"
  , "                                            output: \"mmya\","
  , "                                        },"
  , "                                    ),"
  , "                                    ("
  , "                                        'ゅ',"
  , "                                        Node {"
  , "                                            transitions: None,"
  , "                                            output: \"mmyu\","
  , "                                        },"
  , "                                    ),"
  , "                                    ("
  , "                                        'ょ',"
  , "                                        Node {"
  , "                                            transitions: None,"
  , "                                            output: \"mmyo\","
  , "                                        },"
  , "                                    ),"
  , "                                ]),"
  , "                                output: \"mmi\","
  , "                            },"
  , "                        ),"
  , "                        ("
  , "                            'む',"
  , "                            Node {"
  , "                                transitions: None,"
  , "                                output: \"mmu\","
  , "                            },"
  , "                        ),"
  , "                        ("
  , "                            'め',"
  , "                            Node {"
  , "                                transitions: None,"
  , "                                output: \"mme\","
  , "                            },"
  , "                        ),"
  , "                        ("
  , "                            'も',"
  , "                            Node {"
  , "                                transitions: None,"
  , "                                output: \"mmo\","
  , "                            },"
  , "                        ),"
  , "                        ("
  , "                            'ゃ',"
  , "                            Node {"
  , "                                transitions: None,"
  , "                                output: \"ya\","
  , "                            },"
  , "                        ),"
  , "                        ("
  , "                            'や',"
  , "                            Node {"
  , "                                transitions: None,"
  , "                                output: \"ya\","
  , "                            },"
  , "                        ),"
  , "                        ("
  , "                            'ゅ',"
  , "                            Node {"
  , "                                transitions: None,"
  , "                                output: \"yu\","
  , "                            },"
  , "                        ),"
  , "                        ("
  , "                            'ゆ',"
  , "                            Node {"
  , "                                transitions: None,"
  , "                                output: \"yu\","
  , "                            },"
  , "                        ),"
  , "                        ("
  , "                            'ょ',"
  , "                            Node {"
  , "                                transitions: None,"
  , "                                output: \"yo\","
  , "                            },"
  , "                        ),"
  , "                        ("
  , "                            'よ',"
  , "                            Node {"
  , "                                transitions: None,"
  , "                                output: \"yo\","
  , "                            },"
  , "                        ),"
  , "                        ("
  , "                            'ら',"
  , "                            Node {"
  , "                                transitions: None,"
  , "                                output: \"rra\","
  , "                            },"
  , "                        ),"
  , "                        ("
  , "                            'り',"
  , "                            Node {"
  , "                                transitions: Some(vec!["
  , "                                    ("
  , "                                        'ぃ',"
  , "                                        Node {"
  , "                                            transitions: None,"
  , "                                            output: \"rryi\","
  , "                                        },"
  , "                                    ),"
  , "                                    ("
  , "                                        'ぇ',"
  , "                                        Node {"
  , "                                            transitions: None,"
  , "                                            output: \"rrye\","
  , "                                        },"
  , "                                    ),"
  , "                                    ("
  , "                                        'ゃ',"
  , "                                        Node {"
  , "                                            transitions: None,"
  , "                                            output: \"rrya\","
  , "                                        },"
  , "                                    ),"
  , "                                    ("
  , "                                        'ゅ',"
  , "                                        Node {"
  , "                                            transitions: None,"
  , "                                            output: \"rryu\","
  , "                                        },"
  , "                                    ),"
  , "                                    ("
  , "                                        'ょ',"
  , "                                        Node {"
  , "                                            transitions: None,"
  , "                                            output: \"rryo\","
  , "                                        },"
  , "                                    ),"
  , "                                ]),"
  , "                                output: \"rri\","
  , "                            },"
  , "                        ),"
  , "                        ("
  , "                            'る',"
  , "                            Node {"
  , "                                transitions: None,"
  , "                                output: \"rru\","
  , "                            },"
  , "                        ),"
  , "                        ("
  , "                            'れ',"
  , "                            Node {"
  , "                                transitions: None,"
  , "                                output: \"rre\","
  , "                            },"
  , "                        ),"
  , "                        ("
  , "                            'ろ',"
  , "                            Node {"
  , "                                transitions: None,"
  , "                                output: \"rro\","
  , "                            },"
  , "                        ),"
  , "                        ("
  , "                            'わ',"
  , "                            Node {"
  , "                                transitions: None,"
  , "                                output: \"wwa\","
  , "                            },"
  , "                        ),"
  , "                        ("
  , "                            'ゐ',"
  , "                            Node {"
  , "                                transitions: None,"
  , "                                output: \"wwi\","
  , "                            },"
  , "                        ),"
  , "                        ("
  , "                            'ゑ',"
  , "                            Node {"
  , "                                transitions: None,"
  , "                                output: \"wwe\","
  , "                            },"
  , "                        ),"
  , "                        ("
  , "                            'を',"
  , "                            Node {"
  , "                                transitions: None,"
  , "                                output: \"wwo\","
  , "                            },"
  , "                        ),"
  , "                        ("
  , "                            'ん',"
  , "                            Node {"
  , "                                transitions: None,"
  , "                                output: \"n\","
  , "                            },"
  , "                        ),"
  , "                        ("
  , "                            'ゔ',"
  , "                            Node {"
  , "                                transitions: Some(vec!["
  , "                                    ("
  , "                                        'ぃ',"
  , "                                        Node {"
  , "                                            transitions: None,"
  , "                                            output: \"vvyi\","
  , "                                        },"
  , "                                    ),"
  , "                                    ("
  , "                                        'ぇ',"
  , "                                        Node {"
  , "                                            transitions: None,"
  , "                                            output: \"vvye\","
  , "                                        },"
  , "                                    ),"
  , "                                    ("
  , "                                        'ゃ',"
  , "                                        Node {"
  , "                                            transitions: None,"
  , "                                            output: \"vvya\","
  , "                                        },"
  , "                                    ),"
  , "                                    ("
  , "                                        'ゅ',"
  , "                                        Node {"
  , "                                            transitions: None,"
  , "                                            output: \"vvyu\","
  , "                                        },"
  , "                                    ),"
  , "                                    ("
  , "                                        'ょ',"
  , "                                        Node {"
  , "                                            transitions: None,"
  , "                                            output: \"vvyo\","
  , "                                        },"
  , "                                    ),"
  , "                                ]),"
  , "                                output: \"vvu\","
  , "                            },"
  , "                        ),"
  , "                        ("
  , "                            'ゔ',"
  , "                            Node {"
  , "                                transitions: None,"
  , "                                output: \"vva\","
  , "                            },"
  , "                        ),"
  , "                        ("
  , "                            'ゔ',"
  , "                            Node {"
  , "                                transitions: None,"
  , "                                output: \"vvi\","
  , "                            },"
  , "                        ),"
  , "                        ("
  , "                            'ゔ',"
  , "                            Node {"
  , "                                transitions: None,"
  , "                                output: \"vve\","
  , "                            },"
  , "                        ),"
  , "                        ("
  , "                            'ゔ',"
  , "                            Node {"
  , "                                transitions: None,"
  , "                                output: \"vvo\","
  , "                            },"
  , "                        ),"
  , "                        ("
  , "                            '・',"
  , "                            Node {"
  , "                                transitions: None,"
  , "                                output: \"/\","
  , "                            },"
  , "                        ),"
  , "                        ("
  , "                            'ー',"
  , "                            Node {"
  , "                                transitions: None,"
  , "                                output: \"-\","
  , "                            },"
  , "                        ),"
  , "                        ("
  , "                            '！',"
  , "                            Node {"
  , "                                transitions: None,"
  , "                                output: \"!\","
  , "                            },"
  , "                        ),"
  , "                        ("
  , "                            '（',"
  , "                            Node {"
  , "                                transitions: None,"
  , "                                output: \"(\","
  , "                            },"
  , "                        ),"
  , "                        ("
  , "                            '）',"
  , "                            Node {"
  , "                                transitions: None,"
  , "                                output: \")\","
  , "                            },"
  , "                        ),"
  , "                        ("
  , "                            '：',"
  , "                            Node {"
  , "                                transitions: None,"
  , "                                output: \":\","
  , "                            },"
  , "                        ),"
  , "                        ("
  , "                            '？',"
  , "                            Node {"
  , "                                transitions: None,"
  , "                                output: \"?\","
  , "                            },"
  , "                        ),"
  , "                        ("
  , "                            '［',"
  , "                            Node {"
  , "                                transitions: None,"
  , "                                output: \"[\","
  , "                            },"
  , "                        ),"
  , "                        ("
  , "                            '］',"
  , "                            Node {"
  , "                                transitions: None,"
  , "                                output: \"]\","
  , "                            },"
  , "                        ),"
  , "                        ("
  , "                            '｛',"
  , "                            Node {"
  , "                                transitions: None,"
  , "                                output: \"{\","
  , "                            },"
  , "                        ),"
  , "                        ("
  , "                            '｝',"
  , "                            Node {"
  , "                                transitions: None,"
  , "                                output: \"}\","
  , "                            },"
  , "                        ),"
  , "                    ]),"
  , "                    output: \"\","
  , "                },"
  , "            ),"]

/-- src/to_romaji_node_tree.rs:1881-1887 -/
def romajiText044 : List String :=
  ["            ("
  , "                'つ',"
  , "                Node {"
  , "                    transitions: None,"
  , "                    output: \"tsu\","
  , "                },"
  , "            ),"]

/-- src/to_romaji_node_tree.rs:1888-1894 -/
def romajiText045 : List String :=
  ["            ("
  , "                'づ',"
  , "                Node {"
  , "                    transitions: None,"
  , "                    output: \"zu\","
  , "                },"
  , "            ),"]

/-- src/to_romaji_node_tree.rs:1895-1901 -/
def romajiText046 : List String :=
  ["            ("
  , "                'て',"
  , "                Node {"
  , "                    transitions: None,"
  , "                    output: \"te\","
  , "                },"
  , "            ),"]

/-- src/to_romaji_node_tree.rs:1902-1908 -/
def romajiText047 : List String :=
  ["            ("
  , "                'で',"
  , "                Node {"
  , "                    transitions: None,"
  , "                    output: \"de\","
  , "                },"
  , "            ),"]

/-- src/to_romaji_node_tree.rs:1909-1915 -/
def romajiText048 : List String :=
  ["            ("
  , "                'と',"
  , "                Node {"
  , "                    transitions: None,"
  , "                    output: \"to\","
  , "                },"
  , "            ),"]

/-- src/to_romaji_node_tree.rs:1916-1922 -/
def romajiText049 : List String :=
  ["            ("
  , "                'ど',"
  , "                Node {"
  , "                    transitions: None,"
  , "                    output: \"do\","
  , "                },"
  , "            ),"]

/-- src/to_romaji_node_tree.rs:1923-1929 -/
def romajiText050 : List String :=
  ["            ("
  , "                'な',"
  , "                Node {"
  , "                    transitions: None,"
  , "                    output: \"na\","
  , "                },"
  , "            ),"]

/-- src/to_romaji_node_tree.rs:1930-1972 -/
def romajiText051 : List String :=
  ["            ("
  , "                'に',"
  , "                Node {"
  , "                    transitions: Some(vec!["
  , "                        ("
  , "                            'ぃ',"
  , "                            Node {"
  , "                                transitions: None,"
  , "                                output: \"nyi\","
  , "                            },"
  , "                        ),"
  , "                        ("
  , "                            'ぇ',"
  , "                            Node {"
  , "                                transitions: None,"
  , "                                output: \"nye\","
  , "                            },"
  , "                        ),"
  , "                        ("
  , "                            'ゃ',"
  , "                            Node {"
  , "                                transitions: None,"
  , "                                output: \"nya\","
  , "                            },"
  , "                        ),"
  , "                        ("
  , "                            'ゅ',"
  , "                            Node {"
  , "                                transitions: None,"
  , "                                output: \"nyu\","
  , "                            },"
  , "                        ),"
  , "                        ("
  , "                            'ょ',"
  , "                            Node {"
  , "                                transitions: None,"
  , "                                output: \"nyo\","
  , "                            },"
  , "                        ),"
  , "                    ]),"
  , "                    output: \"ni\","
  , "                },"
  , "            ),"]

/-- src/to_romaji_node_tree.rs:1973-1979 -/
def romajiText052 : List String :=
  ["            ("
  , "                'ぬ',"
  , "                Node {"
  , "                    transitions: None,"
  , "                    output: \"nu\","
  , "                },"
  , "            ),"]

/-- src/to_romaji_node_tree.rs:1980-1986 -/
def romajiText053 : List String :=
  ["            ("
  , "                'ね',"
  , "                Node {"
  , "                    transitions: None,"
  , "                    output: \"ne\","
  , "                },"
  , "            ),"]

/-- src/to_romaji_node_tree.rs:1987-1993 -/
def romajiText054 : List String :=
  ["            ("
  , "                'の',"
  , "                Node {"
  , "                    transitions: None,"
  , "                    output: \"no\","
  , "                },"
  , "            ),"]

/-- src/to_romaji_node_tree.rs:1994-2000 -/
def romajiText055 : List String :=
  ["            ("
  , "                'は',"
  , "                Node {"
  , "                    transitions: None,"
  , "                    output: \"ha\","
  , "                },"
  , "            ),"]

/-- src/to_romaji_node_tree.rs:2001-2007 -/
def romajiText056 : List String :=
  ["            ("
  , "                'ば',"
  , "                Node {"
  , "                    transitions: None,"
  , "                    output: \"ba\","
  , "                },"
  , "            ),"]

/-- src/to_romaji_node_tree.rs:2008-2014 -/
def romajiText057 : List String :=
  ["            ("
  , "                'ぱ',"
  , "                Node {"
  , "                    transitions: None,"
  , "                    output: \"pa\","
  , "                },"
  , "            ),"]

/-- src/to_romaji_node_tree.rs:2015-2057 -/
def romajiText058 : List String :=
  ["            ("
  , "                'ひ',"
  , "                Node {"
  , "                    transitions: Some(vec!["
  , "                        ("
  , "                            'ぃ',"
  , "                            Node {"
  , "                                transitions: None,"
  , "                                output: \"hyi\","
  , "                            },"
  , "                        ),"
  , "                        ("
  , "                            'ぇ',"
  , "                            Node {"
  , "                                transitions: None,"
  , "                                output: \"hye\","
  , "                            },"
  , "                        ),"
  , "                        ("
  , "                            'ゃ',"
  , "                            Node {"
  , "                                transitions: None,"
  , "                                output: \"hya\","
  , "                            },"
  , "                        ),"
  , "                        ("
  , "                            'ゅ',"
  , "                            Node {"
  , "                                transitions: None,"
  , "                                output: \"hyu\","
  , "                            },"
  , "                        ),"
  , "                        ("
  , "                            'ょ',"
  , "                            Node {"
  , "                                transitions: None,"
  , "                                output: \"hyo\","
  , "                            },"
  , "                        ),"
  , "                    ]),"
  , "                    output: \"hi\","
  , "                },"
  , "            ),"]

/-- src/to_romaji_node_tree.rs:2058-2100 -/
def romajiText059 : List String :=
  ["            ("
  , "                'び',"
  , "                Node {"
  , "                    transitions: Some(vec!["
  , "                        ("
  , "                            'ぃ',"
  , "                            Node {"
  , "                                transitions: None,"
  , "                                output: \"byi\","
  , "                            },"
  , "                        ),"
  , "                        ("
  , "                            'ぇ',"
  , "                            Node {"
  , "                                transitions: None,"
  , "                                output: \"bye\","
  , "                            },"
  , "                        ),"
  , "                        ("
  , "                            'ゃ',"
  , "                            Node {"
  , "                                transitions: None,"
  , "                                output: \"bya\","
  , "                            },"
  , "                        ),"
  , "                        ("
  , "                            'ゅ',"
  , "                            Node {"
  , "                                transitions: None,"
  , "                                output: \"byu\","
  , "                            },"
  , "                        ),"
  , "                        ("
  , "                            'ょ',"
  , "                            Node {"
  , "                                transitions: None,"
  , "                                output: \"byo\","
  , "                            },"
  , "                        ),"
  , "                    ]),"
  , "                    output: \"bi\","
  , "                },"
  , "            ),"]

/-- src/to_romaji_node_tree.rs:2101-2143 -/
def romajiText060 : List String :=
  ["            ("
  , "                'ぴ',"
  , "                Node {"
  , "                    transitions: Some(vec!["
  , "                        ("
  , "                            'ぃ',"
  , "                            Node {"
  , "                                transitions: None,"
  , "                                output: \"pyi\","
  , "                            },"
  , "                        ),"
  , "                        ("
  , "                            'ぇ',"
  , "                            Node {"
  , "                                transitions: None,"
  , "                                output: \"pye\","
  , "                            },"
  , "                        ),"
  , "                        ("
  , "                            'ゃ',"
  , "                            Node {"
  , "                                transitions: None,"
  , "                                output: \"pya\","
  , "                            },"
  , "                        ),"
  , "                        ("
  , "                            'ゅ',"
  , "                            Node {"
  , "                                transitions: None,"
  , "                                output: \"pyu\","
  , "                            },"
  , "                        ),"
  , "                        ("
  , "                            'ょ',"
  , "                            Node {"
  , "                                transitions: None,"
  , "                                output: \"pyo\","
  , "                            },"
  , "                        ),"
  , "                    ]),"
  , "                    output: \"pi\","
  , "                },"
  , "            ),"]

/-- src/to_romaji_node_tree.rs:2144-2186 -/
def romajiText061 : List String :=
  ["            ("
  , "                'ふ',"
  , "                Node {"
  , "                    transitions: Some(vec!["
  , "                        ("
  , "                            'ぃ',"
  , "                            Node {"
  , "                                transitions: None,"
  , "                                output: \"fyi\","
  , "                            },"
  , "                        ),"
  , "                        ("
  , "                            'ぇ',"
  , "                            Node {"
  , "                                transitions: None,"
  , "                                output: \"fye\","
  , "                            },"
  , "                        ),"
  , "                        ("
  , "                            'ゃ',"
  , "                            Node {"
  , "                                transitions: None,"
  , "                                output: \"fya\","
  , "                            },"
  , "                        ),"
  , "                        ("
  , "                            'ゅ',"
  , "                            Node {"
  , "                                transitions: None,"
  , "                                output: \"fyu\","
  , "                            },"
  , "                        ),"
  , "                        ("
  , "                            'ょ',"
  , "                            Node {"
  , "                                transitions: None,"
  , "                                output: \"fyo\","
  , "                            },"
  , "                        ),"
  , "                    ]),"
  , "                    output: \"fu\","
  , "                },"
  , "            ),"]

/-- src/to_romaji_node_tree.rs:2187-2193 -/
def romajiText062 : List String :=
  ["            ("
  , "                'ぶ',"
  , "                Node {"
  , "                    transitions: None,"
  , "                    output: \"bu\","
  , "                },"
  , "            ),"]

/-- src/to_romaji_node_tree.rs:2194-2200 -/
def romajiText063 : List String :=
  ["            ("
  , "                'ぷ',"
  , "                Node {"
  , "                    transitions: None,"
  , "                    output: \"pu\","
  , "                },"
  , "            ),"]

/-- src/to_romaji_node_tree.rs:2201-2207 -/
def romajiText064 : List String :=
  ["            ("
  , "                'へ',"
  , "                Node {"
  , "                    transitions: None,"
  , "                    output: \"he\","
  , "                },"
  , "            ),"]

/-- src/to_romaji_node_tree.rs:2208-2214 -/
def romajiText065 : List String :=
  ["            ("
  , "                'べ',"
  , "                Node {"
  , "                    transitions: None,"
  , "                    output: \"be\","
  , "                },"
  , "            ),"]

/-- src/to_romaji_node_tree.rs:2215-2221 -/
def romajiText066 : List String :=
  ["            ("
  , "                'ぺ',"
  , "                Node {"
  , "                    transitions: None,"
  , "                    output: \"pe\","
  , "                },"
  , "            ),"]

/-- src/to_romaji_node_tree.rs:2222-2228 -/
def romajiText067 : List String :=
  ["            ("
  , "                'ほ',"
  , "                Node {"
  , "                    transitions: None,"
  , "                    output: \"ho\","
  , "                },"
  , "            ),"]

/-- src/to_romaji_node_tree.rs:2229-2235 -/
def romajiText068 : List String :=
  ["            ("
  , "                'ぼ',"
  , "                Node {"
  , "                    transitions: None,"
  , "                    output: \"bo\","
  , "                },"
  , "            ),"]

/-- src/to_romaji_node_tree.rs:2236-2242 -/
def romajiText069 : List String :=
  ["            ("
  , "                'ぽ',"
  , "                Node {"
  , "                    transitions: None,"
  , "                    output: \"po\","
  , "                },"
  , "            ),"]

/-- src/to_romaji_node_tree.rs:2243-2249 -/
def romajiText070 : List String :=
  ["            ("
  , "                'ま',"
  , "                Node {"
  , "                    transitions: None,"
  , "                    output: \"ma\","
  , "                },"
  , "            ),"]

/-- src/to_romaji_node_tree.rs:2250-2292 -/
def romajiText071 : List String :=
  ["            ("
  , "                'み',"
  , "                Node {"
  , "                    transitions: Some(vec!["
  , "                        ("
  , "                            'ぃ',"
  , "                            Node {"
  , "                                transitions: None,"
  , "                                output: \"myi\","
  , "                            },"
  , "                        ),"
  , "                        ("
  , "                            'ぇ',"
  , "                            Node {"
  , "                                transitions: None,"
  , "                                output: \"mye\","
  , "                            },"
  , "                        ),"
  , "                        ("
  , "                            'ゃ',"
  , "                            Node {"
  , "                                transitions: None,"
  , "                                output: \"mya\","
  , "                            },"
  , "                        ),"
  , "                        ("
  , "                            'ゅ',"
  , "                            Node {"
  , "                                transitions: None,"
  , "                                output: \"myu\","
  , "                            },"
  , "                        ),"
  , "                        ("
  , "                            'ょ',"
  , "                            Node {"
  , "                                transitions: None,"
  , "                                output: \"myo\","
  , "                            },"
  , "                        ),"
  , "                    ]),"
  , "                    output: \"mi\","
  , "                },"
  , "            ),"]

/-- src/to_romaji_node_tree.rs:2293-2299 -/
def romajiText072 : List String :=
  ["            ("
  , "                'む',"
  , "                Node {"
  , "                    transitions: None,"
  , "                    output: \"mu\","
  , "                },"
  , "            ),"]

/-- src/to_romaji_node_tree.rs:2300-2306 -/
def romajiText073 : List String :=
  ["            ("
  , "                'め',"
  , "                Node {"
  , "                    transitions: None,"
  , "                    output: \"me\","
  , "                },"
  , "            ),"]

/-- src/to_romaji_node_tree.rs:2307-2313 -/
def romajiText074 : List String :=
  ["            ("
  , "                'も',"
  , "                Node {"
  , "                    transitions: None,"
  , "                    output: \"mo\","
  , "                },"
  , "            ),"]

/-- src/to_romaji_node_tree.rs:2314-2320 -/
def romajiText075 : List String :=
  ["            ("
  , "                'ゃ',"
  , "                Node {"
  , "                    transitions: None,"
  , "                    output: \"ya\","
  , "                },"
  , "            ),"]

/-- src/to_romaji_node_tree.rs:2321-2327 -/
def romajiText076 : List String :=
  ["            ("
  , "                'や',"
  , "                Node {"
  , "                    transitions: None,"
  , "                    output: \"ya\","
  , "                },"
  , "            ),"]

/-- src/to_romaji_node_tree.rs:2328-2334 -/
def romajiText077 : List String :=
  ["            ("
  , "                'ゅ',"
  , "                Node {"
  , "                    transitions: None,"
  , "                    output: \"yu\","
  , "                },"
  , "            ),"]

/-- src/to_romaji_node_tree.rs:2335-2341 -/
def romajiText078 : List String :=
  ["            ("
  , "                'ゆ',"
  , "                Node {"
  , "                    transitions: None,"
  , "                    output: \"yu\","
  , "                },"
  , "            ),"]

/-- src/to_romaji_node_tree.rs:2342-2348 -/
def romajiText079 : List String :=
  ["            ("
  , "                'ょ',"
  , "                Node {"
  , "                    transitions: None,"
  , "                    output: \"yo\","
  , "                },"
  , "            ),"]

/-- src/to_romaji_node_tree.rs:2349-2355 -/
def romajiText080 : List String :=
  ["            ("
  , "                'よ',"
  , "                Node {"
  , "                    transitions: None,"
  , "                    output: \"yo\","
  , "                },"
  , "            ),"]

/-- src/to_romaji_node_tree.rs:2356-2362 -/
def romajiText081 : List String :=
  ["            ("
  , "                'ら',"
  , "                Node {"
  , "                    transitions: None,"
  , "                    output: \"ra\","
  , "                },"
  , "            ),"]

/-- src/to_romaji_node_tree.rs:2363-2405 -/
def romajiText082 : List String :=
  ["            ("
  , "                'り',"
  , "                Node {"
  , "                    transitions: Some(vec!["
  , "                        ("
  , "                            'ぃ',"
  , "                            Node {"
  , "                                transitions: None,"
  , "                                output: \"ryi\","
  , "                            },"
  , "                        ),"
  , "                        ("
  , "                            'ぇ',"
  , "                            Node {"
  , "                                transitions: None,"
  , "                                output: \"rye\","
  , "                            },"
  , "                        ),"
  , "                        ("
  , "                            'ゃ',"
  , "                            Node {"
  , "                                transitions: None,"
  , "                                output: \"rya\","
  , "                            },"
  , "                        ),"
  , "                        ("
  , "                            'ゅ',"
  , "                            Node {"
  , "                                transitions: None,"
  , "                                output: \"ryu\","
  , "                            },"
  , "                        ),"
  , "                        ("
  , "                            'ょ',"
  , "                            Node {"
  , "                                transitions: None,"
  , "                                output: \"ryo\","
  , "                            },"
  , "                        ),"
  , "                    ]),"
  , "                    output: \"ri\","
  , "                },"
  , "            ),"]

/-- src/to_romaji_node_tree.rs:2406-2412 -/
def romajiText083 : List String :=
  ["            ("
  , "                'る',"
  , "                Node {"
  , "                    transitions: None,"
  , "                    output: \"ru\","
  , "                },"
  , "            ),"]

/-- src/to_romaji_node_tree.rs:2413-2419 -/
def romajiText084 : List String :=
  ["            ("
  , "                'れ',"
  , "                Node {"
  , "                    transitions: None,"
  , "                    output: \"re\","
  , "                },"
  , "            ),"]

/-- src/to_romaji_node_tree.rs:2420-2426 -/
def romajiText085 : List String :=
  ["            ("
  , "                'ろ',"
  , "                Node {"
  , "                    transitions: None,"
  , "                    output: \"ro\","
  , "                },"
  , "            ),"]

/-- src/to_romaji_node_tree.rs:2427-2433 -/
def romajiText086 : List String :=
  ["            ("
  , "                'ゎ',"
  , "                Node {"
  , "                    transitions: None,"
  , "                    output: \"wa\","
  , "                },"
  , "            ),"]

/-- src/to_romaji_node_tree.rs:2434-2440 -/
def romajiText087 : List String :=
  ["            ("
  , "                'わ',"
  , "                Node {"
  , "                    transitions: None,"
  , "                    output: \"wa\","
  , "                },"
  , "            ),"]

/-- src/to_romaji_node_tree.rs:2441-2447 -/
def romajiText088 : List String :=
  ["            ("
  , "                'ゐ',"
  , "                Node {"
  , "                    transitions: None,"
  , "                    output: \"wi\","
  , "                },"
  , "            ),"]

/-- src/to_romaji_node_tree.rs:2448-2454 -/
def romajiText089 : List String :=
  ["            ("
  , "                'ゑ',"
  , "                Node {"
  , "                    transitions: None,"
  , "                    output: \"we\","
  , "                },"
  , "            ),"]

/-- src/to_romaji_node_tree.rs:2455-2461 -/
def romajiText090 : List String :=
  ["            ("
  , "                'を',"
  , "                Node {"
  , "                    transitions: None,"
  , "                    output: \"wo\","
  , "                },"
  , "            ),"]

/-- src/to_romaji_node_tree.rs:2462-2525 -/
def romajiText091 : List String :=
  ["            ("
  , "                'ん',"
  , "                Node {"
  , "                    transitions: Some(vec!["
  , "                        ("
  , "                            'あ',"
  , "                            Node {"
  , "                                transitions: None,"
  , "                                output: \"n\\'a\","
  , "                            },"
  , "                        ),"
  , "                        ("
  , "                            'い',"
  , "                            Node {"
  , "                                transitions: None,"
  , "                                output: \"n\\'i\","
  , "                            },"
  , "                        ),"
  , "                        ("
  , "                            'う',"
  , "                            Node {"
  , "                                transitions: None,"
  , "                                output: \"n\\'u\","
  , "                            },"
  , "                        ),"
  , "                        ("
  , "                            'え',"
  , "                            Node {"
  , "                                transitions: None,"
  , "                                output: \"n\\'e\","
  , "                            },"
  , "                        ),"
  , "                        ("
  , "                            'お',"
  , "                            Node {"
  , "                                transitions: None,"
  , "                                output: \"n\\'o\","
  , "                            },"
  , "                        ),"
  , "                        ("
  , "                            'や',"
  , "                            Node {"
  , "                                transitions: None,"
  , "                                output: \"n\\'ya\","
  , "                            },"
  , "                        ),"
  , "                        ("
  , "                            'ゆ',"
  , "                            Node {"
  , "                                transitions: None,"
  , "                                output: \"n\\'yu\","
  , "                            },"
  , "                        ),"
  , "                        ("
  , "                            'よ',"
  , "                            Node {"
  , "                                transitions: None,"
  , "                                output: \"n\\'yo\","
  , "                            },"
  , "                        ),"
  , "                    ]),"
  , "                    output: \"n\","
  , "                },"
  , "            ),"]

/-- src/to_romaji_node_tree.rs:2526-2568 -/
def romajiText092 : List String :=
  ["            ("
  , "                'ゔ',"
  , "                Node {"
  , "                    transitions: Some(vec!["
  , "                        ("
  , "                            'ぃ',"
  , "                            Node {"
  , "                                transitions: None,"
  , "                                output: \"vyi\","
  , "                            },"
  , "                        ),"
  , "                        ("
  , "                            'ぇ',"
  , "                            Node {"
  , "                                transitions: None,"
  , "                                output: \"vye\","
  , "                            },"
  , "                        ),"
  , "                        ("
  , "                            'ゃ',"
  , "                            Node {"
  , "                                transitions: None,"
  , "                                output: \"vya\","
  , "                            },"
  , "                        ),"
  , "                        ("
  , "                            'ゅ',"
  , "                            Node {"
  , "                                transitions: None,"
  , "                                output: \"vyu\","
  , "                            },"
  , "                        ),"
  , "                        ("
  , "                            'ょ',"
  , "                            Node {"
  , "                                transitions: None,"
  , "                                output: \"vyo\","
  , "                            },"
  , "                        ),"
  , "                    ]),"
  , "                    output: \"vu\","
  , "                },"
  , "            ),"]

/-- src/to_romaji_node_tree.rs:2569-2575 -/
def romajiText093 : List String :=
  ["            ("
  , "                'ゔ',"
  , "                Node {"
  , "                    transitions: None,"
  , "                    output: \"va\","
  , "                },"
  , "            ),"]

/-- src/to_romaji_node_tree.rs:2576-2582 -/
def romajiText094 : List String :=
  ["            ("
  , "                'ゔ',"
  , "                Node {"
  , "                    transitions: None,"
  , "                    output: \"vi\","
  , "                },"
  , "            ),"]

/-- src/to_romaji_node_tree.rs:2583-2589 -/
def romajiText095 : List String :=
  ["            ("
  , "                'ゔ',"
  , "                Node {"
  , "                    transitions: None,"
  , "                    output: \"ve\","
  , "                },"
  , "            ),"]

/-- src/to_romaji_node_tree.rs:2590-2596 -/
def romajiText096 : List String :=
  ["            ("
  , "                'ゔ',"
  , "                Node {"
  , "                    transitions: None,"
  , "                    output: \"vo\","
  , "                },"
  , "            ),"]

/-- src/to_romaji_node_tree.rs:2597-2603 -/
def romajiText097 : List String :=
  ["            ("
  , "                '・',"
  , "                Node {"
  , "                    transitions: None,"
  , "                    output: \"/\","
  , "                },"
  , "            ),"]

/-- src/to_romaji_node_tree.rs:2604-2610 -/
def romajiText098 : List String :=
  ["            ("
  , "                'ー',"
  , "                Node {"
  , "                    transitions: None,"
  , "                    output: \"-\","
  , "                },"
  , "            ),"]

/-- src/to_romaji_node_tree.rs:2611-2617 -/
def romajiText099 : List String :=
  ["            ("
  , "                '！',"
  , "                Node {"
  , "                    transitions: None,"
  , "                    output: \"!\","
  , "                },"
  , "            ),"]

/-- src/to_romaji_node_tree.rs:2618-2624 -/
def romajiText100 : List String :=
  ["            ("
  , "                '（',"
  , "                Node {"
  , "                    transitions: None,"
  , "                    output: \"(\","
  , "                },"
  , "            ),"]

/-- src/to_romaji_node_tree.rs:2625-2631 -/
def romajiText101 : List String :=
  ["            ("
  , "                '）',"
  , "                Node {"
  , "                    transitions: None,"
  , "                    output: \")\","
  , "                },"
  , "            ),"]

/-- src/to_romaji_node_tree.rs:2632-2638 -/
def romajiText102 : List String :=
  ["            ("
  , "                '：',"
  , "                Node {"
  , "                    transitions: None,"
  , "                    output: \":\","
  , "                },"
  , "            ),"]

/-- src/to_romaji_node_tree.rs:2639-2645 -/
def romajiText103 : List String :=
  ["            ("
  , "                '？',"
  , "                Node {"
  , "                    transitions: None,"
  , "                    output: \"?\","
  , "                },"
  , "            ),"]

/-- src/to_romaji_node_tree.rs:2646-2652 -/
def romajiText104 : List String :=
  ["            ("
  , "                '［',"
  , "                Node {"
  , "                    transitions: None,"
  , "                    output: \"[\","
  , "                },"
  , "            ),"]

/-- src/to_romaji_node_tree.rs:2653-2659 -/
def romajiText105 : List String :=
  ["            ("
  , "                '］',"
  , "                Node {"
  , "                    transitions: None,"
  , "                    output: \"]\","
  , "                },"
  , "            ),"]

/-- src/to_romaji_node_tree.rs:2660-2666 -/
def romajiText106 : List String :=
  ["            ("
  , "                '｛',"
  , "                Node {"
  , "                    transitions: None,"
  , "                    output: \"{\","
  , "                },"
  , "            ),"]

/-- src/to_romaji_node_tree.rs:2667-2673 -/
def romajiText107 : List String :=
  ["            ("
  , "                '｝',"
  , "                Node {"
  , "                    transitions: None,"
  , "                    output: \"}\","
  , "                },"
  , "            ),"]

/-- src/to_romaji_node_tree.rs:2674 -/
def romajiTextLast : List String :=
  ["        ]);"]

/-- src/to_romaji_node_tree.rs:45-2673, one element per root transition -/
def romajiTexts : List (List String) :=
  [romajiText000, romajiText001, romajiText002, romajiText003, romajiText004, romajiText005,
   romajiText006, romajiText007, romajiText008, romajiText009, romajiText010, romajiText011,
   romajiText012, romajiText013, romajiText014, romajiText015, romajiText016, romajiText017,
   romajiText018, romajiText019, romajiText020, romajiText021, romajiText022, romajiText023,
   romajiText024, romajiText025, romajiText026, romajiText027, romajiText028, romajiText029,
   romajiText030, romajiText031, romajiText032, romajiText033, romajiText034, romajiText035,
   romajiText036, romajiText037, romajiText038, romajiText039, romajiText040, romajiText041,
   romajiText042, romajiText043, romajiText044, romajiText045, romajiText046, romajiText047,
   romajiText048, romajiText049, romajiText050, romajiText051, romajiText052, romajiText053,
   romajiText054, romajiText055, romajiText056, romajiText057, romajiText058, romajiText059,
   romajiText060, romajiText061, romajiText062, romajiText063, romajiText064, romajiText065,
   romajiText066, romajiText067, romajiText068, romajiText069, romajiText070, romajiText071,
   romajiText072, romajiText073, romajiText074, romajiText075, romajiText076, romajiText077,
   romajiText078, romajiText079, romajiText080, romajiText081, romajiText082, romajiText083,
   romajiText084, romajiText085, romajiText086, romajiText087, romajiText088, romajiText089,
   romajiText090, romajiText091, romajiText092, romajiText093, romajiText094, romajiText095,
   romajiText096, romajiText097, romajiText098, romajiText099, romajiText100, romajiText101,
   romajiText102, romajiText103, romajiText104, romajiText105, romajiText106, romajiText107]

end WanaKana
