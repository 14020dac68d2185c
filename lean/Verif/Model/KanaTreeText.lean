import Verif.Model.Std
/-! # The text of src/to_kana_node_tree.rs:53-4811, line by line (copied by tools/gen_source_text.py) -/

namespace WanaKana

/-- src/to_kana_node_tree.rs:53 -/
def kanaTextFirst : List String :=
  ["        let transitions = vec!["]

/-- src/to_kana_node_tree.rs:54-60 -/
def kanaText000 : List String :=
  ["            ("
  , "                '!',"
  , "                Node {"
  , "                    transitions: vec![],"
  , "                    output: Some(\"！\"),"
  , "                },"
  , "            ),"]

/-- src/to_kana_node_tree.rs:61-67 -/
def kanaText001 : List String :=
  ["            ("
  , "                '(',"
  , "                Node {"
  , "                    transitions: vec![],"
  , "                    output: Some(\"（\"),"
  , "                },"
  , "            ),"]

/-- src/to_kana_node_tree.rs:68-74 -/
def kanaText002 : List String :=
  ["            ("
  , "                ')',"
  , "                Node {"
  , "                    transitions: vec![],"
  , "                    output: Some(\"）\"),"
  , "                },"
  , "            ),"]

/-- src/to_kana_node_tree.rs:75-81 -/
def kanaText003 : List String :=
  ["            ("
  , "                ',',"
  , "                Node {"
  , "                    transitions: vec![],"
  , "                    output: Some(\"、\"),"
  , "                },"
  , "            ),"]

/-- src/to_kana_node_tree.rs:82-88 -/
def kanaText004 : List String :=
  ["            ("
  , "                '-',"
  , "                Node {"
  , "                    transitions: vec![],"
  , "                    output: Some(\"ー\"),"
  , "                },"
  , "            ),"]

/-- src/to_kana_node_tree.rs:89-95 -/
def kanaText005 : List String :=
  ["            ("
  , "                '.',"
  , "                Node {"
  , "                    transitions: vec![],"
  , "                    output: Some(\"。\"),"
  , "                },"
  , "            ),"]

/-- src/to_kana_node_tree.rs:96-102 -/
def kanaText006 : List String :=
  ["            ("
  , "                '/',"
  , "                Node {"
  , "                    transitions: vec![],"
  , "                    output: Some(\"・\"),"
  , "                },"
  , "            ),"]

/-- src/to_kana_node_tree.rs:103-109 -/
def kanaText007 : List String :=
  ["            ("
  , "                ':',"
  , "                Node {"
  , "                    transitions: vec![],"
  , "                    output: Some(\"：\"),"
  , "                },"
  , "            ),"]

/-- src/to_kana_node_tree.rs:110-116 -/
def kanaText008 : List String :=
  ["            ("
  , "                '?',"
  , "                Node {"
  , "                    transitions: vec![],"
  , "                    output: Some(\"？\"),"
  , "                },"
  , "            ),"]

/-- src/to_kana_node_tree.rs:117-123 -/
def kanaText009 : List String :=
  ["            ("
  , "                '[',"
  , "                Node {"
  , "                    transitions: vec![],"
  , "                    output: Some(\"［\"),"
  , "                },"
  , "            ),"]

/-- src/to_kana_node_tree.rs:124-130 -/
def kanaText010 : List String :=
  ["            ("
  , "                ']',"
  , "                Node {"
  , "                    transitions: vec![],"
  , "                    output: Some(\"］\"),"
  , "                },"
  , "            ),"]

/-- src/to_kana_node_tree.rs:131-137 -/
def kanaText011 : List String :=
  ["            ("
  , "                'a',"
  , "                Node {"
  , "                    transitions: vec![],"
  , "                    output: Some(\"あ\"),"
  , "                },"
  , "            ),"]

/-- src/to_kana_node_tree.rs:138-309 -/
def kanaText012 : List String :=
  ["            ("
  , "                'b',"
  , "                Node {"
  , "                    transitions: vec!["
  , "                        ("
  , "                            'a',"
  , "                            Node {"
  , "                                transitions: vec![],"
  , "                                output: Some(\"ば\"),"
  , "                            },"
  , "                        ),"
  , "                        ("
  , "                            'b',"
  , "                            Node {"
  , "                                transitions: vec!["
  , "                                    ("
  , "                                        'a',"
  , "                                        Node {"
  , "                                            transitions: vec![],"
  , "                                            output: Some(\"っば\"),"
  , "                                        },"
  , "                                    ),"
  , "                                    ("
  , "                                        'e',"
  , "                                        Node {"
  , "                                            transitions: vec![],"
  , "                                            output: Some(\"っべ\"),"
  , "                                        },"
  , "                                    ),"
  , "                                    ("
  , "                                        'i',"
  , "                                        Node {"
  , "                                            transitions: vec![],"
  , "                                            output: Some(\"っび\"),"
  , "                                        },"
  , "                                    ),"
  , "                                    ("
  , "                                        'o',"
  , "                                        Node {"
  , "                                            transitions: vec![],"
  , "                                            output: Some(\"っぼ\"),"
  , "                                        },"
  , "                                    ),"
  , "                                    ("
  , "                                        'u',"
  , "                                        Node {"
  , "                                            transitions: vec![],"
  , "                                            output: Some(\"っぶ\"),"
  , "                                        },"
  , "                                    ),"
  , "                                    ("
  , "                                        'y',"
  , "                                        Node {"
  , "                                            transitions: vec!["
  , "                                                ("
  , "                                                    'a',"
  , "                                                    Node {"
  , "                                                        transitions: vec![],"
  , "                                                        output: Some(\"っびゃ\"),"
  , "                                                    },"
  , "                                                ),"
  , "                                                ("
  , "                                                    'e',"
  , "                                                    Node {"
  , "                                                        transitions: vec![],"
  , "                                                        output: Some(\"っびぇ\"),"
  , "                                                    },"
  , "                                                ),"
  , "                                                ("
  , "                                                    'i',"
  , "                                                    Node {"
  , "                                                        transitions: vec![],"
  , "                                                        output: Some(\"っびぃ\"),"
  , "                                                    },"
  , "                                                ),"
  , "                                                ("
  , "                                                    'o',"
  , "                                                    Node {"
  , "                                                        transitions: vec![],"
  , "                                                        output: Some(\"っびょ\"),"
  , "                                                    },"
  , "                                                ),"
  , "                                                ("
  , "                                                    'u',"
  , "                                                    Node {"
  , "                                                        transitions: vec![],"
  , "                                                        output: Some(\"っびゅ\"),"
  , "                                                    },"
  , "                                                ),"
  , "                                            ],"
  , "                                            output: None,"
  , "                                        },"
  , "                                    ),"
  , "                                ],"
  , "                                output: None,"
  , "                            },"
  , "                        ),"
  , "                        ("
  , "                            'e',"
  , "                            Node {"
  , "                                transitions: vec![],"
  , "                                output: Some(\"べ\"),"
  , "                            },"
  , "                        ),"
  , "                        ("
  , "                            'i',"
  , "                            Node {"
  , "                                transitions: vec![],"
  , "                                output: Some(\"び\"),"
  , "                            },"
  , "                        ),"
  , "                        ("
  , "                            'o',"
  , "                            Node {"
  , "                                transitions: vec![],"
  , "                                output: Some(\"ぼ\"),"
  , "                            },"
  , "                        ),"
  , "                        ("
  , "                            'u',"
  , "                            Node {"
  , "                                transitions: vec![],"
  , "                                output: Some(\"ぶ\"),"
  , "                            },"
  , "                        ),"
  , "                        ("
  , "                            'y',"
  , "                            Node {"
  , "                                transitions: vec!["
  , "                                    ("
  , "                                        'a',"
  , "                                        Node {"
  , "                                            transitions: vec![],"
  , "                                            output: Some(\"びゃ\"),"
  , "                                        },"
  , "                                    ),"
  , "                                    ("
  , "                                        'e',"
  , "                                        Node {"
  , "                                            transitions: vec![],"
  , "                                            output: Some(\"びぇ\"),"
  , "                                        },"
  , "                                    ),"
  , "                                    ("
  , "                                        'i',"
  , "                                        Node {"
  , "                                            transitions: vec![],"
  , "                                            output: Some(\"びぃ\"),"
  , "                                        },"
  , "                                    ),"
  , "                                    ("
  , "                                        'o',"
  , "                                        Node {"
  , "                                            transitions: vec![],"
  , "                                            output: Some(\"びょ\"),"
  , "                                        },"
  , "                                    ),"
  , "                                    ("
  , "                                        'u',"
  , "                                        Node {"
  , "                                            transitions: vec![],"
  , "                                            output: Some(\"びゅ\"),"
  , "                                        },"
  , "                                    ),"
  , "                                ],"
  , "                                output: None,"
  , "                            },"
  , "                        ),"
  , "                    ],"
  , "                    output: None,"
  , "                },"
  , "            ),"]

/-- src/to_kana_node_tree.rs:310-653 -/
def kanaText013 : List String :=
  ["            ("
  , "                'c',"
  , "                Node {"
  , "                    transitions: vec!["
  , "                        ("
  , "                            'a',"
  , "                            Node {"
  , "                                transitions: vec![],"
  , "                                output: Some(\"か\"),"
  , "                            },"
  , "                        ),"
  , "                        ("
  , "                            'c',"
  , "                            Node {"
  , "                                transitions: vec!["
  , "                                    ("
  , "                                        'a',"
  , "                                        Node {"
  , "                                            transitions: vec![],"
  , "                                            output: Some(\"っか\"),"
  , "                                        },"
  , "                                    ),"
  , "                                    ("
  , "                                        'e',"
  , "                                        Node {"
  , "                                            transitions: vec![],"
  , "                                            output: Some(\"っけ\"),"
  , "                                        },"
  , "                                    ),"
  , "                                    ("
  , "                                        'h',"
  , "                                        Node {"
  , "                                            transitions: vec!["
  , "                                                ("
  , "                                                    'a',"
  , "                                                    Node {"
  , "                                                        transitions: vec![],"
  , "                                                        output: Some(\"っちゃ\"),"
  , "                                                    },"
  , "                                                ),"
  , "                                                ("
  , "                                                    'e',"
  , "                                                    Node {"
  , "                                                        transitions: vec![],"
  , "                                                        output: Some(\"っちぇ\"),"
  , "                                                    },"
  , "                                                ),"
  , "                                                ("
  , "                                                    'i',"
  , "                                                    Node {"
  , "                                                        transitions: vec![],"
  , "                                                        output: Some(\"っち\"),"
  , "                                                    },"
  , "                                                ),"
  , "                                                ("
  , "                                                    'o',"
  , "                                                    Node {"
  , "                                                        transitions: vec![],"
  , "                                                        output: Some(\"っちょ\"),"
  , "                                                    },"
  , "                                                ),"
  , "                                                ("
  , "                                                    'u',"
  , "                                                    Node {"
  , "                                                        transitions: vec![],"
  , "                                                        output: Some(\"っちゅ\"),"
  , "                                                    },"
  , "                                                ),"
  , "                                                ("
  , "                                                    'y',"
  , "                                                    Node {"
  , "                                                        transitions: vec!["
  , "                                                            ("
  , "                                                                'a',"
  , "                                                                Node {"
  , "                                                                    transitions: vec![],"
  , "                                                                    output: Some(\"っちゃ\"),"
  , "                                                                },"
  , "                                                            ),"
  , "                                                            ("
  , "                                                                'e',"
  , "                                                                Node {"
  , "                                                                    transitions: vec![],"
  , "                                                                    output: Some(\"っちぇ\"),"
  , "                                                                },"
  , "                                                            ),"
  , "                                                            ("
  , "                                                                'i',"
  , "                                                                Node {"
  , "                                                                    transitions: vec![],"
  , "                                                                    output: Some(\"っちぃ\"),"
  , "                                                                },"
  , "                                                            ),"
  , "                                                            ("
  , "                                                                'o',"
  , "                                                                Node {"
  , "                                                                    transitions: vec![],"
  , "                                                                    output: Some(\"っちょ\"),"
  , "                                                                },"
  , "                                                            ),"
  , "                                                            ("
  , "                                                                'u',"
  , "                                                                Node {"
  , "                                                                    transitions: vec![],"
  , "                                                                    output: Some(\"っちゅ\"),"
  , "                                                                },"
  , "                                                            ),"
  , "                                                        ],"
  , "                                                        output: None,"
  , "                                                    },"
  , "                                                ),"
  , "                                            ],"
  , "                                            output: None,"
  , "                                        },"
  , "                                    ),"
  , "                                    ("
  , "                                        'i',"
  , "                                        Node {"
  , "                                            transitions: vec![],"
  , "                                            output: Some(\"っき\"),"
  , "                                        },"
  , "                                    ),"
  , "                                    ("
  , "                                        'o',"
  , "                                        Node {"
  , "                                            transitions: vec![],"
  , "                                            output: Some(\"っこ\"),"
  , "                                        },"
  , "                                    ),"
  , "                                    ("
  , "                                        'u',"
  , "                                        Node {"
  , "                                            transitions: vec![],"
  , "                                            output: Some(\"っく\"),"
  , "                                        },"
  , "                                    ),"
  , "                                    ("
  , "                                        'y',"
  , "                                        Node {"
  , "                                            transitions: vec!["
  , "                                                ("
  , "                                                    'a',"
  , "                                                    Node {"
  , "                                                        transitions: vec![],"
  , "                                                        output: Some(\"っちゃ\"),"
  , "                                                    },"
  , "                                                ),"
  , "                                                ("
  , "                                                    'e',"
  , "                                                    Node {"
  , "                                                        transitions: vec![],"
  , "                                                        output: Some(\"っちぇ\"),"
  , "                                                    },"
  , "                                                ),"
  , "                                                ("
  , "                                                    'i',"
  , "                                                    Node {"
  , "                                                        transitions: vec![],"
  , "                                                        output: Some(\"っちぃ\"),"
  , "                                                    },"
  , "                                                ),"
  , "                                                ("
  , "                                                    'o',"
  , "                                                    Node {"
  , "                                                        transitions: vec![],"
  , "                                                        output: Some(\"っちょ\"),"
  , "                                                    },"
  , "                                                ),"
  , "                                                ("
  , "                                                    'u',"
  , "                                                    Node {"
  , "                                                        transitions: vec![],"
  , "                                                        output: Some(\"っちゅ\"),"
  , "                                                    },"
  , "                                                ),"
  , "                                            ],"
  , "                                            output: None,"
  , "                                        },"
  , "                                    ),"
  , "                                ],"
  , "                                output: None,"
  , "                            },"
  , "                        ),"
  , "                        ("
  , "                            'e',"
  , "                            Node {"
  , "                                transitions: vec![],"
  , "                                output: Some(\"け\"),"
  , "                            },"
  , "                        ),"
  , "                        ("
  , "                            'h',"
  , "                            Node {"
  , "                                transitions: vec!["
  , "                                    ("
  , "                                        'a',"
  , "                                        Node {"
  , "                                            transitions: vec![],"
  , "                                            output: Some(\"ちゃ\"),"
  , "                                        },"
  , "                                    ),"
  , "                                    ("
  , "                                        'e',"
  , "                                        Node {"
  , "                                            transitions: vec![],"
  , "                                            output: Some(\"ちぇ\"),"
  , "                                        },"
  , "                                    ),"
  , "                                    ("
  , "                                        'i',"
  , "                                        Node {"
  , "                                            transitions: vec![],"
  , "                                            output: Some(\"ち\"),"
  , "                                        },"
  , "                                    ),"
  , "                                    ("
  , "                                        'o',"
  , "                                        Node {"
  , "                                            transitions: vec![],"
  , "                                            output: Some(\"ちょ\"),"
  , "                                        },"
  , "                                    ),"
  , "                                    ("
  , "                                        'u',"
  , "                                        Node {"
  , "                                            transitions: vec![],"
  , "                                            output: Some(\"ちゅ\"),"
  , "                                        },"
  , "                                    ),"
  , "                                    ("
  , "                                        'y',"
  , "                                        Node {"
  , "                                            transitions: vec!["
  , "                                                ("
  , "                                                    'a',"
  , "                                                    Node {"
  , "                                                        transitions: vec![],"
  , "                                                        output: Some(\"ちゃ\"),"
  , "                                                    },"
  , "                                                ),"
  , "                                                ("
  , "                                                    'e',"
  , "                                                    Node {"
  , "                                                        transitions: vec![],"
  , "                                                        output: Some(\"ちぇ\"),"
  , "                                                    },"
  , "                                                ),"
  , "                                                ("
  , "                                                    'i',"
  , "                                                    Node {"
  , "                                                        transitions: vec![],"
  , "                                                        output: Some(\"ちぃ\"),"
  , "                                                    },"
  , "                                                ),"
  , "                                                ("
  , "                                                    'o',"
  , "                                                    Node {"
  , "                                                        transitions: vec![],"
  , "                                                        output: Some(\"ちょ\"),"
  , "                                                    },"
  , "                                                ),"
  , "                                                ("
  , "                                                    'u',"
  , "                                                    Node {"
  , "                                                        transitions: vec![],"
  , "                                                        output: Some(\"ちゅ\"),"
  , "                                                    },"
  , "                                                ),"
  , "                                            ],"
  , "                                            output: None,"
  , "                                        },"
  , "                                    ),"
  , "                                ],"
  , "                                output: None,"
  , "                            },"
  , "                        ),"
  , "                        ("
  , "                            'i',"
  , "                            Node {"
  , "                                transitions: vec![],"
  , "                                output: Some(\"き\"),"
  , "                            },"
  , "                        ),"
  , "                        ("
  , "                            'o',"
  , "                            Node {"
  , "                                transitions: vec![],"
  , "                                output: Some(\"こ\"),"
  , "                            },"
  , "                        ),"
  , "                        ("
  , "                            'u',"
  , "                            Node {"
  , "                                transitions: vec![],"
  , "                                output: Some(\"く\"),"
  , "                            },"
  , "                        ),"
  , "                        ("
  , "                            'y',"
  , "                            Node {"
  , "                                transitions: vec!["
  , "                                    ("
  , "                                        'a',"
  , "                                        Node {"
  , "                                            transitions: vec![],"
  , "                                            output: Some(\"ちゃ\"),"
  , "                                        },"
  , "                                    ),"
  , "                                    ("
  , "                                        'e',"
  , "                                        Node {"
  , "                                            transitions: vec![],"
  , "                                            output: Some(\"ちぇ\"),"
  , "                                        },"
  , "                                    ),"
  , "                                    ("
  , "                                        'i',"
  , "                                        Node {"
  , "                                            transitions: vec![],"
  , "                                            output: Some(\"ちぃ\"),"
  , "                                        },"
  , "                                    ),"
  , "                                    ("
  , "                                        'o',"
  , "                                        Node {"
  , "                                            transitions: vec![],"
  , "                                            output: Some(\"ちょ\"),"
  , "                                        },"
  , "                                    ),"
  , "                                    ("
  , "                                        'u',"
  , "                                        Node {"
  , "                                            transitions: vec![],"
  , "                                            output: Some(\"ちゅ\"),"
  , "                                        },"
  , "                                    ),"
  , "                                ],"
  , "                                output: None,"
  , "                            },"
  , "                        ),"
  , "                    ],"
  , "                    output: None,"
  , "                },"
  , "            ),"]

/-- src/to_kana_node_tree.rs:654-997 -/
def kanaText014 : List String :=
  ["            ("
  , "                'd',"
  , "                Node {"
  , "                    transitions: vec!["
  , "                        ("
  , "                            'a',"
  , "                            Node {"
  , "                                transitions: vec![],"
  , "                                output: Some(\"だ\"),"
  , "                            },"
  , "                        ),"
  , "                        ("
  , "                            'd',"
  , "                            Node {"
  , "                                transitions: vec!["
  , "                                    ("
  , "                                        'a',"
  , "                                        Node {"
  , "                                            transitions: vec![],"
  , "                                            output: Some(\"っだ\"),"
  , "                                        },"
  , "                                    ),"
  , "                                    ("
  , "                                        'e',"
  , "                                        Node {"
  , "                                            transitions: vec![],"
  , "                                            output: Some(\"っで\"),"
  , "                                        },"
  , "                                    ),"
  , "                                    ("
  , "                                        'h',"
  , "                                        Node {"
  , "                                            transitions: vec!["
  , "                                                ("
  , "                                                    'a',"
  , "                                                    Node {"
  , "                                                        transitions: vec![],"
  , "                                                        output: Some(\"っでゃ\"),"
  , "                                                    },"
  , "                                                ),"
  , "                                                ("
  , "                                                    'e',"
  , "                                                    Node {"
  , "                                                        transitions: vec![],"
  , "                                                        output: Some(\"っでぇ\"),"
  , "                                                    },"
  , "                                                ),"
  , "                                                ("
  , "                                                    'i',"
  , "                                                    Node {"
  , "                                                        transitions: vec![],"
  , "                                                        output: Some(\"っでぃ\"),"
  , "                                                    },"
  , "                                                ),"
  , "                                                ("
  , "                                                    'o',"
  , "                                                    Node {"
  , "                                                        transitions: vec![],"
  , "                                                        output: Some(\"っでょ\"),"
  , "                                                    },"
  , "                                                ),"
  , "                                                ("
  , "                                                    'u',"
  , "                                                    Node {"
  , "                                                        transitions: vec![],"
  , "                                                        output: Some(\"っでゅ\"),"
  , "                                                    },"
  , "                                                ),"
  , "                                            ],"
  , "                                            output: None,"
  , "                                        },"
  , "                                    ),"
  , "                                    ("
  , "                                        'i',"
  , "                                        Node {"
  , "                                            transitions: vec![],"
  , "                                            output: Some(\"っぢ\"),"
  , "                                        },"
  , "                                    ),"
  , "                                    ("
  , "                                        'o',"
  , "                                        Node {"
  , "                                            transitions: vec![],"
  , "                                            output: Some(\"っど\"),"
  , "                                        },"
  , "                                    ),"
  , "                                    ("
  , "                                        'u',"
  , "                                        Node {"
  , "                                            transitions: vec![],"
  , "                                            output: Some(\"っづ\"),"
  , "                                        },"
  , "                                    ),"
  , "                                    ("
  , "                                        'w',"
  , "                                        Node {"
  , "                                            transitions: vec!["
  , "                                                ("
  , "                                                    'a',"
  , "                                                    Node {"
  , "                                                        transitions: vec![],"
  , "                                                        output: Some(\"っどぁ\"),"
  , "                                                    },"
  , "                                                ),"
  , "                                                ("
  , "                                                    'e',"
  , "                                                    Node {"
  , "                                                        transitions: vec![],"
  , "                                                        output: Some(\"っどぇ\"),"
  , "                                                    },"
  , "                                                ),"
  , "                                                ("
  , "                                                    'i',"
  , "                                                    Node {"
  , "                                                        transitions: vec![],"
  , "                                                        output: Some(\"っどぃ\"),"
  , "                                                    },"
  , "                                                ),"
  , "                                                ("
  , "                                                    'o',"
  , "                                                    Node {"
  , "                                                        transitions: vec![],"
  , "                                                        output: Some(\"っどぉ\"),"
  , "                                                    },"
  , "                                                ),"
  , "                                                ("
  , "                                                    'u',"
  , "                                                    Node {"
  , "                                                        transitions: vec![],"
  , "                                                        output: Some(\"っどぅ\"),"
  , "                                                    },"
  , "                                                ),"
  , "                                            ],"
  , "                                            output: None,"
  , "                                        },"
  , "                                    ),"
  , "                                    ("
  , "                                        'y',"
  , "                                        Node {"
  , "                                            transitions: vec!["
  , "                                                ("
  , "                                                    'a',"
  , "                                                    Node {"
  , "                                                        transitions: vec![],"
  , "                                                        output: Some(\"っぢゃ\"),"
  , "                                                    },"
  , "                                                ),"
  , "                                                ("
  , "                                                    'e',"
  , "                                                    Node {"
  , "                                                        transitions: vec![],"
  , "                                                        output: Some(\"っぢぇ\"),"
  , "                                                    },"
  , "                                                ),"
  , "                                                ("
  , "                                                    'i',"
  , "                                                    Node {"
  , "                                                        transitions: vec![],"
  , "                                                        output: Some(\"っぢぃ\"),"
  , "                                                    },"
  , "                                                ),"
  , "                                                ("
  , "                                                    'o',"
  , "                                                    Node {"
  , "                                                        transitions: vec![],"
  , "                                                        output: Some(\"っぢょ\"),"
  , "                                                    },"
  , "                                                ),"
  , "                                                ("
  , "                                                    'u',"
  , "                                                    Node {"
  , "                                                        transitions: vec![],"
  , "                                                        output: Some(\"っぢゅ\"),"
  , "                                                    },"
  , "                                                ),"
  , "                                            ],"
  , "                                            output: None,"
  , "                                        },"
  , "                                    ),"
  , "                                ],"
  , "                                output: None,"
  , "                            },"
  , "                        ),"
  , "                        ("
  , "                            'e',"
  , "                            Node {"
  , "                                transitions: vec![],"
  , "                                output: Some(\"で\"),"
  , "                            },"
  , "                        ),"
  , "                        ("
  , "                            'h',"
  , "                            Node {"
  , "                                transitions: vec!["
  , "                                    ("
  , "                                        'a',"
  , "                                        Node {"
  , "                                            transitions: vec![],"
  , "                                            output: Some(\"でゃ\"),"
  , "                                        },"
  , "                                    ),"
  , "                                    ("
  , "                                        'e',"
  , "                                        Node {"
  , "                                            transitions: vec![],"
  , "                                            output: Some(\"でぇ\"),"
  , "                                        },"
  , "                                    ),"
  , "                                    ("
  , "                                        'i',"
  , "                                        Node {"
  , "                                            transitions: vec![],"
  , "                                            output: Some(\"でぃ\"),"
  , "                                        },"
  , "                                    ),"
  , "                                    ("
  , "                                        'o',"
  , "                                        Node {"
  , "                                            transitions: vec![],"
  , "                                            output: Some(\"でょ\"),"
  , "                                        },"
  , "                                    ),"
  , "                                    ("
  , "                                        'u',"
  , "                                        Node {"
  , "                                            transitions: vec![],"
  , "                                            output: Some(\"でゅ\"),"
  , "                                        },"
  , "                                    ),"
  , "                                ],"
  , "                                output: None,"
  , "                            },"
  , "                        ),"
  , "                        ("
  , "                            'i',"
  , "                            Node {"
  , "                                transitions: vec![],"
  , "                                output: Some(\"ぢ\"),"
  , "                            },"
  , "                        ),"
  , "                        ("
  , "                            'o',"
  , "                            Node {"
  , "                                transitions: vec![],"
  , "                                output: Some(\"ど\"),"
  , "                            },"
  , "                        ),"
  , "                        ("
  , "                            'u',"
  , "                            Node {"
  , "                                transitions: vec![],"
  , "                                output: Some(\"づ\"),"
  , "                            },"
  , "                        ),"
  , "                        ("
  , "                            'w',"
  , "                            Node {"
  , "                                transitions: vec!["
  , "                                    ("
  , "                                        'a',"
  , "                                        Node {"
  , "                                            transitions: vec![],"
  , "                                            output: Some(\"どぁ\"),"
  , "                                        },"
  , "                                    ),"
  , "                                    ("
  , "                                        'e',"
  , "                                        Node {"
  , "                                            transitions: vec![],"
  , "                                            output: Some(\"どぇ\"),"
  , "                                        },"
  , "                                    ),"
  , "                                    ("
  , "                                        'i',"
  , "                                        Node {"
  , "                                            transitions: vec![],"
  , "                                            output: Some(\"どぃ\"),"
  , "                                        },"
  , "                                    ),"
  , "                                    ("
  , "                                        'o',"
  , "                                        Node {"
  , "                                            transitions: vec![],"
  , "                                            output: Some(\"どぉ\"),"
  , "                                        },"
  , "                                    ),"
  , "                                    ("
  , "                                        'u',"
  , "                                        Node {"
  , "                                            transitions: vec![],"
  , "                                            output: Some(\"どぅ\"),"
  , "                                        },"
  , "                                    ),"
  , "                                ],"
  , "                                output: None,"
  , "                            },"
  , "                        ),"
  , "                        ("
  , "                            'y',"
  , "                            Node {"
  , "                                transitions: vec!["
  , "                                    ("
  , "                                        'a',"
  , "                                        Node {"
  , "                                            transitions: vec![],"
  , "                                            output: Some(\"ぢゃ\"),"
  , "                                        },"
  , "                                    ),"
  , "                                    ("
  , "                                        'e',"
  , "                                        Node {"
  , "                                            transitions: vec![],"
  , "                                            output: Some(\"ぢぇ\"),"
  , "                                        },"
  , "                                    ),"
  , "                                    ("
  , "                                        'i',"
  , "                                        Node {"
  , "                                            transitions: vec![],"
  , "                                            output: Some(\"ぢぃ\"),"
  , "                                        },"
  , "                                    ),"
  , "                                    ("
  , "                                        'o',"
  , "                                        Node {"
  , "                                            transitions: vec![],"
  , "                                            output: Some(\"ぢょ\"),"
  , "                                        },"
  , "                                    ),"
  , "                                    ("
  , "                                        'u',"
  , "                                        Node {"
  , "                                            transitions: vec![],"
  , "                                            output: Some(\"ぢゅ\"),"
  , "                                        },"
  , "                                    ),"
  , "                                ],"
  , "                                output: None,"
  , "                            },"
  , "                        ),"
  , "                    ],"
  , "                    output: None,"
  , "                },"
  , "            ),"]

/-- src/to_kana_node_tree.rs:998-1004 -/
def kanaText015 : List String :=
  ["            ("
  , "                'e',"
  , "                Node {"
  , "                    transitions: vec![],"
  , "                    output: Some(\"え\"),"
  , "                },"
  , "            ),"]

/-- src/to_kana_node_tree.rs:1005-1262 -/
def kanaText016 : List String :=
  ["            ("
  , "                'f',"
  , "                Node {"
  , "                    transitions: vec!["
  , "                        ("
  , "                            'a',"
  , "                            Node {"
  , "                                transitions: vec![],"
  , "                                output: Some(\"ふぁ\"),"
  , "                            },"
  , "                        ),"
  , "                        ("
  , "                            'e',"
  , "                            Node {"
  , "                                transitions: vec![],"
  , "                                output: Some(\"ふぇ\"),"
  , "                            },"
  , "                        ),"
  , "                        ("
  , "                            'f',"
  , "                            Node {"
  , "                                transitions: vec!["
  , "                                    ("
  , "                                        'a',"
  , "                                        Node {"
  , "                                            transitions: vec![],"
  , "                                            output: Some(\"っふぁ\"),"
  , "                                        },"
  , "                                    ),"
  , "                                    ("
  , "                                        'e',"
  , "                                        Node {"
  , "                                            transitions: vec![],"
  , "                                            output: Some(\"っふぇ\"),"
  , "                                        },"
  , "                                    ),"
  , "                                    ("
  , "                                        'i',"
  , "                                        Node {"
  , "                                            transitions: vec![],"
  , "                                            output: Some(\"っふぃ\"),"
  , "                                        },"
  , "                                    ),"
  , "                                    ("
  , "                                        'o',"
  , "                                        Node {"
  , "                                            transitions: vec![],"
  , "                                            output: Some(\"っふぉ\"),"
  , "                                        },"
  , "                                    ),"
  , "                                    ("
  , "                                        'u',"
  , "                                        Node {"
  , "                                            transitions: vec![],"
  , "                                            output: Some(\"っふ\"),"
  , "                                        },"
  , "                                    ),"
  , "                                    ("
  , "                                        'w',"
  , "                                        Node {"
  , "                                            transitions: vec!["
  , "                                                ("
  , "                                                    'a',"
  , "                                                    Node {"
  , "                                                        transitions: vec![],"
  , "                                                        output: Some(\"っふぁ\"),"
  , "                                                    },"
  , "                                                ),"
  , "                                                ("
  , "                                                    'e',"
  , "                                                    Node {"
  , "                                                        transitions: vec![],"
  , "                                                        output: Some(\"っふぇ\"),"
  , "                                                    },"
  , "                                                ),"
  , "                                                ("
  , "                                                    'i',"
  , "                                                    Node {"
  , "                                                        transitions: vec![],"
  , "                                                        output: Some(\"っふぃ\"),"
  , "                                                    },"
  , "                                                ),"
  , "                                                ("
  , "                                                    'o',"
  , "                                                    Node {"
  , "                                                        transitions: vec![],"
  , "                                                        output: Some(\"っふぉ\"),"
  , "                                                    },"
  , "                                                ),"
  , "                                                ("
  , "                                                    'u',"
  , "                                                    Node {"
  , "                                                        transitions: vec![],"
  , "                                                        output: Some(\"っふぅ\"),"
  , "                                                    },"
  , "                                                ),"
  , "                                            ],"
  , "                                            output: None,"
  , "                                        },"
  , "                                    ),"
  , "                                    ("
  , "                                        'y',"
  , "                                        Node {"
  , "                                            transitions: vec!["
  , "                                                ("
  , "                                                    'a',"
  , "                                                    Node {"
  , "                                                        transitions: vec![],"
  , "                                                        output: Some(\"っふゃ\"),"
  , "                                                    },"
  , "                                                ),"
  , "                                                ("
  , "                                                    'e',"
  , "                                                    Node {"
  , "                                                        transitions: vec![],"
  , "                                                        output: Some(\"っふぇ\"),"
  , "                                                    },"
  , "                                                ),"
  , "                                                ("
  , "                                                    'i',"
  , "                                                    Node {"
  , "                                                        transitions: vec![],"
  , "                                                        output: Some(\"っふぃ\"),"
  , "                                                    },"
  , "                                                ),"
  , "                                                ("
  , "                                                    'o',"
  , "                                                    Node {"
  , "                                                        transitions: vec![],"
  , "                                                        output: Some(\"っふょ\"),"
  , "                                                    },"
  , "                                                ),"
  , "                                                ("
  , "                                                    'u',"
  , "                                                    Node {"
  , "                                                        transitions: vec![],"
  , "                                                        output: Some(\"っふゅ\"),"
  , "                                                    },"
  , "                                                ),"
  , "                                            ],"
  , "                                            output: None,"
  , "                                        },"
  , "                                    ),"
  , "                                ],"
  , "                                output: None,"
  , "                            },"
  , "                        ),"
  , "                        ("
  , "                            'i',"
  , "                            Node {"
  , "                                transitions: vec![],"
  , "                                output: Some(\"ふぃ\"),"
  , "                            },"
  , "                        ),"
  , "                        ("
  , "                            'o',"
  , "                            Node {"
  , "                                transitions: vec![],"
  , "                                output: Some(\"ふぉ\"),"
  , "                            },"
  , "                        ),"
  , "                        ("
  , "                            'u',"
  , "                            Node {"
  , "                                transitions: vec![],"
  , "                                output: Some(\"ふ\"),"
  , "                            },"
  , "                        ),"
  , "                        ("
  , "                            'w',"
  , "                            Node {"
  , "                                transitions: vec!["
  , "                                    ("
  , "                                        'a',"
  , "                                        Node {"
  , "                                            transitions: vec![],"
  , "                                            output: Some(\"ふぁ\"),"
  , "                                        },"
  , "                                    ),"
  , "                                    ("
  , "                                        'e',"
  , "                                        Node {"
  , "                                            transitions: vec![],"
  , "                                            output: Some(\"ふぇ\"),"
  , "                                        },"
  , "                                    ),"
  , "                                    ("
  , "                                        'i',"
  , "                                        Node {"
  , "                                            transitions: vec![],"
  , "                                            output: Some(\"ふぃ\"),"
  , "                                        },"
  , "                                    ),"
  , "                                    ("
  , "                                        'o',"
  , "                                        Node {"
  , "                                            transitions: vec![],"
  , "                                            output: Some(\"ふぉ\"),"
  , "                                        },"
  , "                                    ),"
  , "                                    ("
  , "                                        'u',"
  , "                                        Node {"
  , "                                            transitions: vec![],"
  , "                                            output: Some(\"ふぅ\"),"
  , "                                        },"
  , "                                    ),"
  , "                                ],"
  , "                                output: None,"
  , "                            },"
  , "                        ),"
  , "                        ("
  , "                            'y',"
  , "                            Node {"
  , "                                transitions: vec!["
  , "                                    ("
  , "                                        'a',"
  , "                                        Node {"
  , "                                            transitions: vec![],"
  , "                                            output: Some(\"ふゃ\"),"
  , "                                        },"
  , "                                    ),"
  , "                                    ("
  , "                                        'e',"
  , "                                        Node {"
  , "                                            transitions: vec![],"
  , "                                            output: Some(\"ふぇ\"),"
  , "                                        },"
  , "                                    ),"
  , "                                    ("
  , "                                        'i',"
  , "                                        Node {"
  , "                                            transitions: vec![],"
  , "                                            output: Some(\"ふぃ\"),"
  , "                                        },"
  , "                                    ),"
  , "                                    ("
  , "                                        'o',"
  , "                                        Node {"
  , "                                            transitions: vec![],"
  , "                                            output: Some(\"ふょ\"),"
  , "                                        },"
  , "                                    ),"
  , "                                    ("
  , "                                        'u',"
  , "                                        Node {"
  , "                                            transitions: vec![],"
  , "                                            output: Some(\"ふゅ\"),"
  , "                                        },"
  , "                                    ),"
  , "                                ],"
  , "                                output: None,"
  , "                            },"
  , "                        ),"
  , "                    ],"
  , "                    output: None,"
  , "                },"
  , "            ),"]

/-- src/to_kana_node_tree.rs:1263-1520 -/
def kanaText017 : List String :=
  ["            ("
  , "                'g',"
  , "                Node {"
  , "                    transitions: vec!["
  , "                        ("
  , "                            'a',"
  , "                            Node {"
  , "                                transitions: vec![],"
  , "                                output: Some(\"が\"),"
  , "                            },"
  , "                        ),"
  , "                        ("
  , "                            'e',"
  , "                            Node {"
  , "                                transitions: vec![],"
  , "                                output: Some(\"げ\"),"
  , "                            },"
  , "                        ),"
  , "                        ("
  , "                            'g',"
  , "                            Node {"
  , "                                transitions: vec!["
  , "                                    ("
  , "                                        'a',"
  , "                                        Node {"
  , "                                            transitions: vec![],"
  , "                                            output: Some(\"っが\"),"
  , "                                        },"
  , "                                    ),"
  , "                                    ("
  , "                                        'e',"
  , "                                        Node {"
  , "                                            transitions: vec![],"
  , "                                            output: Some(\"っげ\"),"
  , "                                        },"
  , "                                    ),"
  , "                                    ("
  , "                                        'i',"
  , "                                        Node {"
  , "                                            transitions: vec![],"
  , "                                            output: Some(\"っぎ\"),"
  , "                                        },"
  , "                                    ),"
  , "                                    ("
  , "                                        'o',"
  , "                                        Node {"
  , "                                            transitions: vec![],"
  , "                                            output: Some(\"っご\"),"
  , "                                        },"
  , "                                    ),"
  , "                                    ("
  , "                                        'u',"
  , "                                        Node {"
  , "                                            transitions: vec![],"
  , "                                            output: Some(\"っぐ\"),"
  , "                                        },"
  , "                                    ),"
  , "                                    ("
  , "                                        'w',"
  , "                                        Node {"
  , "                                            transitions: vec!["
  , "                                                ("
  , "                                                    'a',"
  , "                                                    Node {"
  , "                                                        transitions: vec![],"
  , "                                                        output: Some(\"っぐぁ\"),"
  , "                                                    },"
  , "                                                ),"
  , "                                                ("
  , "                                                    'e',"
  , "                                                    Node {"
  , "                                                        transitions: vec![],"
  , "                                                        output: Some(\"っぐぇ\"),"
  , "                                                    },"
  , "                                                ),"
  , "                                                ("
  , "                                                    'i',"
  , "                                                    Node {"
  , "                                                        transitions: vec![],"
  , "                                                        output: Some(\"っぐぃ\"),"
  , "                                                    },"
  , "                                                ),"
  , "                                                ("
  , "                                                    'o',"
  , "                                                    Node {"
  , "                                                        transitions: vec![],"
  , "                                                        output: Some(\"っぐぉ\"),"
  , "                                                    },"
  , "                                                ),"
  , "                                                ("
  , "                                                    'u',"
  , "                                                    Node {"
  , "                                                        transitions: vec![],"
  , "                                                        output: Some(\"っぐぅ\"),"
  , "                                                    },"
  , "                                                ),"
  , "                                            ],"
  , "                                            output: None,"
  , "                                        },"
  , "                                    ),"
  , "                                    ("
  , "                                        'y',"
  , "                                        Node {"
  , "                                            transitions: vec!["
  , "                                                ("
  , "                                                    'a',"
  , "                                                    Node {"
  , "                                                        transitions: vec![],"
  , "                                                        output: Some(\"っぎゃ\"),"
  , "                                                    },"
  , "                                                ),"
  , "                                                ("
  , "                                                    'e',"
  , "                                                    Node {"
  , "                                                        transitions: vec![],"
  , "                                                        output: Some(\"っぎぇ\"),"
  , "                                                    },"
  , "                                                ),"
  , "                                                ("
  , "                                                    'i',"
  , "                                                    Node {"
  , "                                                        transitions: vec![],"
  , "                                                        output: Some(\"っぎぃ\"),"
  , "                                                    },"
  , "                                                ),"
  , "                                                ("
  , "                                                    'o',"
  , "                                                    Node {"
  , "                                                        transitions: vec![],"
  , "                                                        output: Some(\"っぎょ\"),"
  , "                                                    },"
  , "                                                ),"
  , "                                                ("
  , "                                                    'u',"
  , "                                                    Node {"
  , "                                                        transitions: vec![],"
  , "                                                        output: Some(\"っぎゅ\"),"
  , "                                                    },"
  , "                                                ),"
  , "                                            ],"
  , "                                            output: None,"
  , "                                        },"
  , "                                    ),"
  , "                                ],"
  , "                                output: None,"
  , "                            },"
  , "                        ),"
  , "                        ("
  , "                            'i',"
  , "                            Node {"
  , "                                transitions: vec![],"
  , "                                output: Some(\"ぎ\"),"
  , "                            },"
  , "                        ),"
  , "                        ("
  , "                            'o',"
  , "                            Node {"
  , "                                transitions: vec![],"
  , "                                output: Some(\"ご\"),"
  , "                            },"
  , "                        ),"
  , "                        ("
  , "                            'u',"
  , "                            Node {"
  , "                                transitions: vec![],"
  , "                                output: Some(\"ぐ\"),"
  , "                            },"
  , "                        ),"
  , "                        ("
  , "                            'w',"
  , "                            Node {"
  , "                                transitions: vec!["
  , "                                    ("
  , "                                        'a',"
  , "                                        Node {"
  , "                                            transitions: vec![],"
  , "                                            output: Some(\"ぐぁ\"),"
  , "                                        },"
  , "                                    ),"
  , "                                    ("
  , "                                        'e',"
  , "                                        Node {"
  , "                                            transitions: vec![],"
  , "                                            output: Some(\"ぐぇ\"),"
  , "                                        },"
  , "                                    ),"
  , "                                    ("
  , "                                        'i',"
  , "                                        Node {"
  , "                                            transitions: vec![],"
  , "                                            output: Some(\"ぐぃ\"),"
  , "                                        },"
  , "                                    ),"
  , "                                    ("
  , "                                        'o',"
  , "                                        Node {"
  , "                                            transitions: vec![],"
  , "                                            output: Some(\"ぐぉ\"),"
  , "                                        },"
  , "                                    ),"
  , "                                    ("
  , "                                        'u',"
  , "                                        Node {"
  , "                                            transitions: vec![],"
  , "                                            output: Some(\"ぐぅ\"),"
  , "                                        },"
  , "                                    ),"
  , "                                ],"
  , "                                output: None,"
  , "                            },"
  , "                        ),"
  , "                        ("
  , "                            'y',"
  , "                            Node {"
  , "                                transitions: vec!["
  , "                                    ("
  , "                                        'a',"
  , "                                        Node {"
  , "                                            transitions: vec![],"
  , "                                            output: Some(\"ぎゃ\"),"
  , "                                        },"
  , "                                    ),"
  , "                                    ("
  , "                                        'e',"
  , "                                        Node {"
  , "                                            transitions: vec![],"
  , "                                            output: Some(\"ぎぇ\"),"
  , "                                        },"
  , "                                    ),"
  , "                                    ("
  , "                                        'i',"
  , "                                        Node {"
  , "                                            transitions: vec![],"
  , "                                            output: Some(\"ぎぃ\"),"
  , "                                        },"
  , "                                    ),"
  , "                                    ("
  , "                                        'o',"
  , "                                        Node {"
  , "                                            transitions: vec![],"
  , "                                            output: Some(\"ぎょ\"),"
  , "                                        },"
  , "                                    ),"
  , "                                    ("
  , "                                        'u',"
  , "                                        Node {"
  , "                                            transitions: vec![],"
  , "                                            output: Some(\"ぎゅ\"),"
  , "                                        },"
  , "                                    ),"
  , "                                ],"
  , "                                output: None,"
  , "                            },"
  , "                        ),"
  , "                    ],"
  , "                    output: None,"
  , "                },"
  , "            ),"]

/-- src/to_kana_node_tree.rs:1521-1692 -/
def kanaText018 : List String :=
  ["            ("
  , "                'h',"
  , "                Node {"
  , "                    transitions: vec!["
  , "                        ("
  , "                            'a',"
  , "                            Node {"
  , "                                transitions: vec![],"
  , "                                output: Some(\"は\"),"
  , "                            },"
  , "                        ),"
  , "                        ("
  , "                            'e',"
  , "                            Node {"
  , "                                transitions: vec![],"
  , "                                output: Some(\"へ\"),"
  , "                            },"
  , "                        ),"
  , "                        ("
  , "                            'h',"
  , "                            Node {"
  , "                                transitions: vec!["
  , "                                    ("
  , "                                        'a',"
  , "                                        Node {"
  , "                                            transitions: vec![],"
  , "                                            output: Some(\"っは\"),"
  , "                                        },"
  , "                                    ),"
  , "                                    ("
  , "                                        'e',"
  , "                                        Node {"
  , "                                            transitions: vec![],"
  , "                                            output: Some(\"っへ\"),"
  , "                                        },"
  , "                                    ),"
  , "                                    ("
  , "                                        'i',"
  , "                                        Node {"
  , "                                            transitions: vec![],"
  , "                                            output: Some(\"っひ\"),"
  , "                                        },"
  , "                                    ),"
  , "                                    ("
  , "                                        'o',"
  , "                                        Node {"
  , "                                            transitions: vec![],"
  , "                                            output: Some(\"っほ\"),"
  , "                                        },"
  , "                                    ),"
  , "                                    ("
  , "                                        'u',"
  , "                                        Node {"
  , "                                            transitions: vec![],"
  , "                                            output: Some(\"っふ\"),"
  , "                                        },"
  , "                                    ),"
  , "                                    ("
  , "                                        'y',"
  , "                                        Node {"
  , "                                            transitions: vec!["
  , "                                                ("
  , "                                                    'a',"
  , "                                                    Node {"
  , "                                                        transitions: vec![],"
  , "                                                        output: Some(\"っひゃ\"),"
  , "                                                    },"
  , "                                                ),"
  , "                                                ("
  , "                                                    'e',"
  , "                                                    Node {"
  , "                                                        transitions: vec![],"
  , "                                                        output: Some(\"っひぇ\"),"
  , "                                                    },"
  , "                                                ),"
  , "                                                ("
  , "                                                    'i',"
  , "                                                    Node {"
  , "                                                        transitions: vec![],"
  , "                                                        output: Some(\"っひぃ\"),"
  , "                                                    },"
  , "                                                ),"
  , "                                                ("
  , "                                                    'o',"
  , "                                                    Node {"
  , "                                                        transitions: vec![],"
  , "                                                        output: Some(\"っひょ\"),"
  , "                                                    },"
  , "                                                ),"
  , "                                                ("
  , "                                                    'u',"
  , "                                                    Node {"
  , "                                                        transitions: vec![],"
  , "                                                        output: Some(\"っひゅ\"),"
  , "                                                    },"
  , "                                                ),"
  , "                                            ],"
  , "                                            output: None,"
  , "                                        },"
  , "                                    ),"
  , "                                ],"
  , "                                output: None,"
  , "                            },"
  , "                        ),"
  , "                        ("
  , "                            'i',"
  , "                            Node {"
  , "                                transitions: vec![],"
  , "                                output: Some(\"ひ\"),"
  , "                            },"
  , "                        ),"
  , "                        ("
  , "                            'o',"
  , "                            Node {"
  , "                                transitions: vec![],"
  , "                                output: Some(\"ほ\"),"
  , "                            },"
  , "                        ),"
  , "                        ("
  , "                            'u',"
  , "                            Node {"
  , "                                transitions: vec![],"
  , "                                output: Some(\"ふ\"),"
  , "                            },"
  , "                        ),"
  , "                        ("
  , "                            'y',"
  , "                            Node {"
  , "                                transitions: vec!["
  , "                                    ("
  , "                                        'a',"
  , "                                        Node {"
  , "                                            transitions: vec![],"
  , "                                            output: Some(\"ひゃ\"),"
  , "                                        },"
  , "                                    ),"
  , "                                    ("
  , "                                        'e',"
  , "                                        Node {"
  , "                                            transitions: vec![],"
  , "                                            output: Some(\"ひぇ\"),"
  , "                                        },"
  , "                                    ),"
  , "                                    ("
  , "                                        'i',"
  , "                                        Node {"
  , "                                            transitions: vec![],"
  , "                                            output: Some(\"ひぃ\"),"
  , "                                        },"
  , "                                    ),"
  , "                                    ("
  , "                                        'o',"
  , "                                        Node {"
  , "                                            transitions: vec![],"
  , "                                            output: Some(\"ひょ\"),"
  , "                                        },"
  , "                                    ),"
  , "                                    ("
  , "                                        'u',"
  , "                                        Node {"
  , "                                            transitions: vec![],"
  , "                                            output: Some(\"ひゅ\"),"
  , "                                        },"
  , "                                    ),"
  , "                                ],"
  , "                                output: None,"
  , "                            },"
  , "                        ),"
  , "                    ],"
  , "                    output: None,"
  , "                },"
  , "            ),"]

/-- src/to_kana_node_tree.rs:1693-1699 -/
def kanaText019 : List String :=
  ["            ("
  , "                'i',"
  , "                Node {"
  , "                    transitions: vec![],"
  , "                    output: Some(\"い\"),"
  , "                },"
  , "            ),"]

/-- src/to_kana_node_tree.rs:1700-1871 -/
def kanaText020 : List String :=
  ["            ("
  , "                'j',"
  , "                Node {"
  , "                    transitions: vec!["
  , "                        ("
  , "                            'a',"
  , "                            Node {"
  , "                                transitions: vec![],"
  , "                                output: Some(\"じゃ\"),"
  , "                            },"
  , "                        ),"
  , "                        ("
  , "                            'e',"
  , "                            Node {"
  , "                                transitions: vec![],"
  , "                                output: Some(\"じぇ\"),"
  , "                            },"
  , "                        ),"
  , "                        ("
  , "                            'i',"
  , "                            Node {"
  , "                                transitions: vec![],"
  , "                                output: Some(\"じ\"),"
  , "                            },"
  , "                        ),"
  , "                        ("
  , "                            'j',"
  , "                            Node {"
  , "                                transitions: vec!["
  , "                                    ("
  , "                                        'a',"
  , "                                        Node {"
  , "                                            transitions: vec![],"
  , "                                            output: Some(\"っじゃ\"),"
  , "                                        },"
  , "                                    ),"
  , "                                    ("
  , "                                        'e',"
  , "                                        Node {"
  , "                                            transitions: vec![],"
  , "                                            output: Some(\"っじぇ\"),"
  , "                                        },"
  , "                                    ),"
  , "                                    ("
  , "                                        'i',"
  , "                                        Node {"
  , "                                            transitions: vec![],"
  , "                                            output: Some(\"っじ\"),"
  , "                                        },"
  , "                                    ),"
  , "                                    ("
  , "                                        'o',"
  , "                                        Node {"
  , "                                            transitions: vec![],"
  , "                                            output: Some(\"っじょ\"),"
  , "                                        },"
  , "                                    ),"
  , "                                    ("
  , "                                        'u',"
  , "                                        Node {"
  , "                                            transitions: vec![],"
  , "                                            output: Some(\"っじゅ\"),"
  , "                                        },"
  , "                                    ),"
  , "                                    ("
  , "                                        'y',"
  , "                                        Node {"
  , "                                            transitions: vec!["
  , "                                                ("
  , "                                                    'a',"
  , "                                                    Node {"
  , "                                                        transitions: vec![],"
  , "                                                        output: Some(\"っじゃ\"),"
  , "                                                    },"
  , "                                                ),"
  , "                                                ("
  , "                                                    'e',"
  , "                                                    Node {"
  , "                                                        transitions: vec![],"
  , "                                                        output: Some(\"っじぇ\"),"
  , "                                                    },"
  , "                                                ),"
  , "                                                ("
  , "                                                    'i',"
  , "                                                    Node {"
  , "                                                        transitions: vec![],"
  , "                                                        output: Some(\"っじぃ\"),"
  , "                                                    },"
  , "                                                ),"
  , "                                                ("
  , "                                                    'o',"
  , "                                                    Node {"
  , "                                                        transitions: vec![],"
  , "                                                        output: Some(\"っじょ\"),"
  , "                                                    },"
  , "                                                ),"
  , "                                                ("
  , "                                                    'u',"
  , "                                                    Node {"
  , "                                                        transitions: vec![],"
  , "                                                        output: Some(\"っじゅ\"),"
  , "                                                    },"
  , "                                                ),"
  , "                                            ],"
  , "                                            output: None,"
  , "                                        },"
  , "                                    ),"
  , "                                ],"
  , "                                output: None,"
  , "                            },"
  , "                        ),"
  , "                        ("
  , "                            'o',"
  , "                            Node {"
  , "                                transitions: vec![],"
  , "                                output: Some(\"じょ\"),"
  , "                            },"
  , "                        ),"
  , "                        ("
  , "                            'u',"
  , "                            Node {"
  , "                                transitions: vec![],"
  , "                                output: Some(\"じゅ\"),"
  , "                            },"
  , "                        ),"
  , "                        ("
  , "                            'y',"
  , "                            Node {"
  , "                                transitions: vec!["
  , "                                    ("
  , "                                        'a',"
  , "                                        Node {"
  , "                                            transitions: vec![],"
  , "                                            output: Some(\"じゃ\"),"
  , "                                        },"
  , "                                    ),"
  , "                                    ("
  , "                                        'e',"
  , "                                        Node {"
  , "                                            transitions: vec![],"
  , "                                            output: Some(\"じぇ\"),"
  , "                                        },"
  , "                                    ),"
  , "                                    ("
  , "                                        'i',"
  , "                                        Node {"
  , "                                            transitions: vec![],"
  , "                                            output: Some(\"じぃ\"),"
  , "                                        },"
  , "                                    ),"
  , "                                    ("
  , "                                        'o',"
  , "                                        Node {"
  , "                                            transitions: vec![],"
  , "                                            output: Some(\"じょ\"),"
  , "                                        },"
  , "                                    ),"
  , "                                    ("
  , "                                        'u',"
  , "                                        Node {"
  , "                                            transitions: vec![],"
  , "                                            output: Some(\"じゅ\"),"
  , "                                        },"
  , "                                    ),"
  , "                                ],"
  , "                                output: None,"
  , "                            },"
  , "                        ),"
  , "                    ],"
  , "                    output: None,"
  , "                },"
  , "            ),"]

/-- src/to_kana_node_tree.rs:1872-2069 -/
def kanaText021 : List String :=
  ["            ("
  , "                'k',"
  , "                Node {"
  , "                    transitions: vec!["
  , "                        ("
  , "                            'a',"
  , "                            Node {"
  , "                                transitions: vec![],"
  , "                                output: Some(\"か\"),"
  , "                            },"
  , "                        ),"
  , "                        ("
  , "                            'e',"
  , "                            Node {"
  , "                                transitions: vec![],"
  , "                                output: Some(\"け\"),"
  , "                            },"
  , "                        ),"
  , "                        ("
  , "                            'i',"
  , "                            Node {"
  , "                                transitions: vec![],"
  , "                                output: Some(\"き\"),"
  , "                            },"
  , "                        ),"
  , "                        ("
  , "                            'k',"
  , "                            Node {"
  , "                                transitions: vec!["
  , "                                    ("
  , "                                        'a',"
  , "                                        Node {"
  , "                                            transitions: vec![],"
  , "                                            output: Some(\"っか\"),"
  , "                                        },"
  , "                                    ),"
  , "                                    ("
  , "                                        'e',"
  , "                                        Node {"
  , "                                            transitions: vec![],"
  , "                                            output: Some(\"っけ\"),"
  , "                                        },"
  , "                                    ),"
  , "                                    ("
  , "                                        'i',"
  , "                                        Node {"
  , "                                            transitions: vec![],"
  , "                                            output: Some(\"っき\"),"
  , "                                        },"
  , "                                    ),"
  , "                                    ("
  , "                                        'o',"
  , "                                        Node {"
  , "                                            transitions: vec![],"
  , "                                            output: Some(\"っこ\"),"
  , "                                        },"
  , "                                    ),"
  , "                                    ("
  , "                                        'u',"
  , "                                        Node {"
  , "                                            transitions: vec![],"
  , "                                            output: Some(\"っく\"),"
  , "                                        },"
  , "                                    ),"
  , "                                    ("
  , "                                        'w',"
  , "                                        Node {"
  , "                                            transitions: vec![("
  , "                                                'a',"
  , "                                                Node {"
  , "                                                    transitions: vec![],"
  , "                                                    output: Some(\"っくぁ\"),"
  , "                                                },"
  , "                                            )],"
  , "                                            output: None,"
  , "                                        },"
  , "                                    ),"
  , "                                    ("
  , "                                        'y',"
  , "                                        Node {"
  , "                                            transitions: vec!["
  , "                                                ("
  , "                                                    'a',"
  , "                                                    Node {"
  , "                                                        transitions: vec![],"
  , "                                                        output: Some(\"っきゃ\"),"
  , "                                                    },"
  , "                                                ),"
  , "                                                ("
  , "                                                    'e',"
  , "                                                    Node {"
  , "                                                        transitions: vec![],"
  , "                                                        output: Some(\"っきぇ\"),"
  , "                                                    },"
  , "                                                ),"
  , "                                                ("
  , "                                                    'i',"
  , "                                                    Node {"
  , "                                                        transitions: vec![],"
  , "                                                        output: Some(\"っきぃ\"),"
  , "                                                    },"
  , "                                                ),"
  , "                                                ("
  , "                                                    'o',"
  , "                                                    Node {"
  , "                                                        transitions: vec![],"
  , "                                                        output: Some(\"っきょ\"),"
  , "                                                    },"
  , "                                                ),"
  , "                                                ("
  , "                                                    'u',"
  , "                                                    Node {"
  , "                                                        transitions: vec![],"
  , "                                                        output: Some(\"っきゅ\"),"
  , "                                                    },"
  , "                                                ),"
  , "                                            ],"
  , "                                            output: None,"
  , "                                        },"
  , "                                    ),"
  , "                                ],"
  , "                                output: None,"
  , "                            },"
  , "                        ),"
  , "                        ("
  , "                            'o',"
  , "                            Node {"
  , "                                transitions: vec![],"
  , "                                output: Some(\"こ\"),"
  , "                            },"
  , "                        ),"
  , "                        ("
  , "                            'u',"
  , "                            Node {"
  , "                                transitions: vec![],"
  , "                                output: Some(\"く\"),"
  , "                            },"
  , "                        ),"
  , "                        ("
  , "                            'w',"
  , "                            Node {"
  , "                                transitions: vec![("
  , "                                    'a',"
  , "                                    Node {"
  , "                                        transitions: vec![],"
  , "                                        output: Some(\"くぁ\"),"
  , "                                    },"
  , "                                )],"
  , "                                output: None,"
  , "                            },"
  , "                        ),"
  , "                        ("
  , "                            'y',"
  , "                            Node {"
  , "                                transitions: vec!["
  , "                                    ("
  , "                                        'a',"
  , "                                        Node {"
  , "                                            transitions: vec![],"
  , "                                            output: Some(\"きゃ\"),"
  , "                                        },"
  , "                                    ),"
  , "                                    ("
  , "                                        'e',"
  , "                                        Node {"
  , "                                            transitions: vec![],"
  , "                                            output: Some(\"きぇ\"),"
  , "                                        },"
  , "                                    ),"
  , "                                    ("
  , "                                        'i',"
  , "                                        Node {"
  , "                                            transitions: vec![],"
  , "                                            output: Some(\"きぃ\"),"
  , "                                        },"
  , "                                    ),"
  , "                                    ("
  , "                                        'o',"
  , "                                        Node {"
  , "                                            transitions: vec![],"
  , "                                            output: Some(\"きょ\"),"
  , "                                        },"
  , "                                    ),"
  , "                                    ("
  , "                                        'u',"
  , "                                        Node {"
  , "                                            transitions: vec![],"
  , "                                            output: Some(\"きゅ\"),"
  , "                                        },"
  , "                                    ),"
  , "                                ],"
  , "                                output: None,"
  , "                            },"
  , "                        ),"
  , "                    ],"
  , "                    output: None,"
  , "                },"
  , "            ),"]

/-- src/to_kana_node_tree.rs:2070-2240 -/
def kanaText022 : List String :=
  ["            ("
  , "                'l',"
  , "                Node {"
  , "                    transitions: vec!["
  , "                        ("
  , "                            'a',"
  , "                            Node {"
  , "                                transitions: vec![],"
  , "                                output: Some(\"ぁ\"),"
  , "                            },"
  , "                        ),"
  , "                        ("
  , "                            'c',"
  , "                            Node {"
  , "                                transitions: vec!["
  , "                                    ("
  , "                                        'a',"
  , "                                        Node {"
  , "                                            transitions: vec![],"
  , "                                            output: Some(\"ヵ\"),"
  , "                                        },"
  , "                                    ),"
  , "                                    ("
  , "                                        'e',"
  , "                                        Node {"
  , "                                            transitions: vec![],"
  , "                                            output: Some(\"ヶ\"),"
  , "                                        },"
  , "                                    ),"
  , "                                ],"
  , "                                output: None,"
  , "                            },"
  , "                        ),"
  , "                        ("
  , "                            'e',"
  , "                            Node {"
  , "                                transitions: vec![],"
  , "                                output: Some(\"ぇ\"),"
  , "                            },"
  , "                        ),"
  , "                        ("
  , "                            'i',"
  , "                            Node {"
  , "                                transitions: vec![],"
  , "                                output: Some(\"ぃ\"),"
  , "                            },"
  , "                        ),"
  , "                        ("
  , "                            'k',"
  , "                            Node {"
  , "                                transitions: vec!["
  , "                                    ("
  , "                                        'a',"
  , "                                        Node {"
  , "                                            transitions: vec![],"
  , "                                            output: Some(\"ヵ\"),"
  , "                                        },"
  , "                                    ),"
  , "                                    ("
  , "                                        'e',"
  , "                                        Node {"
  , "                                            transitions: vec![],"
  , "                                            output: Some(\"ヶ\"),"
  , "                                        },"
  , "                                    ),"
  , "                                ],"
  , "                                output: None,"
  , "                            },"
  , "                        ),"
  , "                        ("
  , "                            'o',"
  , "                            Node {"
  , "                                transitions: vec![],"
  , "                                output: Some(\"ぉ\"),"
  , "                            },"
  , "                        ),"
  , "                        ("
  , "                            't',"
  , "                            Node {"
  , "                                transitions: vec!["
  , "                                    ("
  , "                                        's',"
  , "                                        Node {"
  , "                                            transitions: vec![("
  , "                                                'u',"
  , "                                                Node {"
  , "                                                    transitions: vec![],"
  , "                                                    output: Some(\"っ\"),"
  , "                                                },"
  , "                                            )],"
  , "                                            output: None,"
  , "                                        },"
  , "                                    ),"
  , "                                    ("
  , "                                        'u',"
  , "                                        Node {"
  , "                                            transitions: vec![],"
  , "                                            output: Some(\"っ\"),"
  , "                                        },"
  , "                                    ),"
  , "                                ],"
  , "                                output: None,"
  , "                            },"
  , "                        ),"
  , "                        ("
  , "                            'u',"
  , "                            Node {"
  , "                                transitions: vec![],"
  , "                                output: Some(\"ぅ\"),"
  , "                            },"
  , "                        ),"
  , "                        ("
  , "                            'w',"
  , "                            Node {"
  , "                                transitions: vec![("
  , "                                    'a',"
  , "                                    Node {"
  , "                                        transitions: vec![],"
  , "                                        output: Some(\"ゎ\"),"
  , "                                    },"
  , "                                )],"
  , "                                output: None,"
  , "                            },"
  , "                        ),"
  , "                        ("
  , "                            'y',"
  , "                            Node {"
  , "                                transitions: vec!["
  , "                                    ("
  , "                                        'a',"
  , "                                        Node {"
  , "                                            transitions: vec![],"
  , "                                            output: Some(\"ゃ\"),"
  , "                                        },"
  , "                                    ),"
  , "                                    ("
  , "                                        'e',"
  , "                                        Node {"
  , "                                            transitions: vec![],"
  , "                                            output: Some(\"ぇ\"),"
  , "                                        },"
  , "                                    ),"
  , "                                    ("
  , "                                        'i',"
  , "                                        Node {"
  , "                                            transitions: vec![],"
  , "                                            output: Some(\"ぃ\"),"
  , "                                        },"
  , "                                    ),"
  , "                                    ("
  , "                                        'o',"
  , "                                        Node {"
  , "                                            transitions: vec![],"
  , "                                            output: Some(\"ょ\"),"
  , "                                        },"
  , "                                    ),"
  , "                                    ("
  , "                                        'u',"
  , "                                        Node {"
  , "                                            transitions: vec![],"
  , "                                            output: Some(\"ゅ\"),"
  , "                                        },"
  , "                                    ),"
  , "                                ],"
  , "                                output: None,"
  , "                            },"
  , "                        ),"
  , "                    ],"
  , "                    output: None,"
  , "                },"
  , "            ),"]

/-- src/to_kana_node_tree.rs:2241-2412 -/
def kanaText023 : List String :=
  ["            ("
  , "                'm',"
  , "                Node {"
  , "                    transitions: vec!["
  , "                        ("
  , "                            'a',"
  , "                            Node {"
  , "                                transitions: vec![],"
  , "                                output: Some(\"ま\"),"
  , "                            },"
  , "                        ),"
  , "                        ("
  , "                            'e',"
  , "                            Node {"
  , "                                transitions: vec![],"
  , "                                output: Some(\"め\"),"
  , "                            },"
  , "                        ),"
  , "                        ("
  , "                            'i',"
  , "                            Node {"
  , "                                transitions: vec![],"
  , "                                output: Some(\"み\"),"
  , "                            },"
  , "                        ),"
  , "                        ("
  , "                            'm',"
  , "                            Node {"
  , "                                transitions: vec!["
  , "                                    ("
  , "                                        'a',"
  , "                                        Node {"
  , "                                            transitions: vec![],"
  , "                                            output: Some(\"っま\"),"
  , "                                        },"
  , "                                    ),"
  , "                                    ("
  , "                                        'e',"
  , "                                        Node {"
  , "                                            transitions: vec![],"
  , "                                            output: Some(\"っめ\"),"
  , "                                        },"
  , "                                    ),"
  , "                                    ("
  , "                                        'i',"
  , "                                        Node {"
  , "                                            transitions: vec![],"
  , "                                            output: Some(\"っみ\"),"
  , "                                        },"
  , "                                    ),"
  , "                                    ("
  , "                                        'o',"
  , "                                        Node {"
  , "                                            transitions: vec![],"
  , "                                            output: Some(\"っも\"),"
  , "                                        },"
  , "                                    ),"
  , "                                    ("
  , "                                        'u',"
  , "                                        Node {"
  , "                                            transitions: vec![],"
  , "                                            output: Some(\"っむ\"),"
  , "                                        },"
  , "                                    ),"
  , "                                    ("
  , "                                        'y',"
  , "                                        Node {"
  , "                                            transitions: vec!["
  , "                                                ("
  , "                                                    'a',"
  , "                                                    Node {"
  , "                                                        transitions: vec![],"
  , "                                                        output: Some(\"っみゃ\"),"
  , "                                                    },"
  , "                                                ),"
  , "                                                ("
  , "                                                    'e',"
  , "                                                    Node {"
  , "                                                        transitions: vec![],"
  , "                                                        output: Some(\"っみぇ\"),"
  , "                                                    },"
  , "                                                ),"
  , "                                                ("
  , "                                                    'i',"
  , "                                                    Node {"
  , "                                                        transitions: vec![],"
  , "                                                        output: Some(\"っみぃ\"),"
  , "                                                    },"
  , "                                                ),"
  , "                                                ("
  , "                                                    'o',"
  , "                                                    Node {"
  , "                                                        transitions: vec![],"
  , "                                                        output: Some(\"っみょ\"),"
  , "                                                    },"
  , "                                                ),"
  , "                                                ("
  , "                                                    'u',"
  , "                                                    Node {"
  , "                                                        transitions: vec![],"
  , "                                                        output: Some(\"っみゅ\"),"
  , "                                                    },"
  , "                                                ),"
  , "                                            ],"
  , "                                            output: None,"
  , "                                        },"
  , "                                    ),"
  , "                                ],"
  , "                                output: None,"
  , "                            },"
  , "                        ),"
  , "                        ("
  , "                            'o',"
  , "                            Node {"
  , "                                transitions: vec![],"
  , "                                output: Some(\"も\"),"
  , "                            },"
  , "                        ),"
  , "                        ("
  , "                            'u',"
  , "                            Node {"
  , "                                transitions: vec![],"
  , "                                output: Some(\"む\"),"
  , "                            },"
  , "                        ),"
  , "                        ("
  , "                            'y',"
  , "                            Node {"
  , "                                transitions: vec!["
  , "                                    ("
  , "                                        'a',"
  , "                                        Node {"
  , "                                            transitions: vec![],"
  , "                                            output: Some(\"みゃ\"),"
  , "                                        },"
  , "                                    ),"
  , "                                    ("
  , "                                        'e',"
  , "                                        Node {"
  , "                                            transitions: vec![],"
  , "                                            output: Some(\"みぇ\"),"
  , "                                        },"
  , "                                    ),"
  , "                                    ("
  , "                                        'i',"
  , "                                        Node {"
  , "                                            transitions: vec![],"
  , "                                            output: Some(\"みぃ\"),"
  , "                                        },"
  , "                                    ),"
  , "                                    ("
  , "                                        'o',"
  , "                                        Node {"
  , "                                            transitions: vec![],"
  , "                                            output: Some(\"みょ\"),"
  , "                                        },"
  , "                                    ),"
  , "                                    ("
  , "                                        'u',"
  , "                                        Node {"
  , "                                            transitions: vec![],"
  , "                                            output: Some(\"みゅ\"),"
  , "                                        },"
  , "                                    ),"
  , "                                ],"
  , "                                output: None,"
  , "                            },"
  , "                        ),"
  , "                    ],"
  , "                    output: None,"
  , "                },"
  , "            ),"]

/-- src/to_kana_node_tree.rs:2413-2505 -/
def kanaText024 : List String :=
  ["            ("
  , "                'n',"
  , "                Node {"
  , "                    transitions: vec!["
  , "                        ("
  , "                            '\\'',"
  , "                            Node {"
  , "                                transitions: vec![],"
  , "                                output: Some(\"ん\"),"
  , "                            },"
  , "                        ),"
  , "                        ("
  , "                            'a',"
  , "                            Node {"
  , "                                transitions: vec![],"
  , "                                output: Some(\"な\"),"
  , "                            },"
  , "                        ),"
  , "                        ("
  , "                            'e',"
  , "                            Node {"
  , "                                transitions: vec![],"
  , "                                output: Some(\"ね\"),"
  , "                            },"
  , "                        ),"
  , "                        ("
  , "                            'i',"
  , "                            Node {"
  , "                                transitions: vec![],"
  , "                                output: Some(\"に\"),"
  , "                            },"
  , "                        ),"
  , "                        ("
  , "                            'o',"
  , "                            Node {"
  , "                                transitions: vec![],"
  , "                                output: Some(\"の\"),"
  , "                            },"
  , "                        ),"
  , "                        ("
  , "                            'u',"
  , "                            Node {"
  , "                                transitions: vec![],"
  , "                                output: Some(\"ぬ\"),"
  , "                            },"
  , "                        ),"
  , "                        ("
  , "                            'y',"
  , "                            Node {"
  , "                                transitions: vec!["
  , "                                    ("
  , "                                        'a',"
  , "                                        Node {"
  , "                                            transitions: vec![],"
  , "                                            output: Some(\"にゃ\"),"
  , "                                        },"
  , "                                    ),"
  , "                                    ("
  , "                                        'e',"
  , "                                        Node {"
  , "                                            transitions: vec![],"
  , "                                            output: Some(\"にぇ\"),"
  , "                                        },"
  , "                                    ),"
  , "                                    ("
  , "                                        'i',"
  , "                                        Node {"
  , "                                            transitions: vec![],"
  , "                                            output: Some(\"にぃ\"),"
  , "                                        },"
  , "                                    ),"
  , "                                    ("
  , "                                        'o',"
  , "                                        Node {"
  , "                                            transitions: vec![],"
  , "                                            output: Some(\"にょ\"),"
  , "                                        },"
  , "                                    ),"
  , "                                    ("
  , "                                        'u',"
  , "                                        Node {"
  , "                                            transitions: vec![],"
  , "                                            output: Some(\"にゅ\"),"
  , "                                        },"
  , "                                    ),"
  , "                                ],"
  , "                                output: None,"
  , "                            },"
  , "                        ),"
  , "                    ],"
  , "                    output: Some(\"ん\"),"
  , "                },"
  , "            ),"]

/-- src/to_kana_node_tree.rs:2506-2512 -/
def kanaText025 : List String :=
  ["            ("
  , "                'o',"
  , "                Node {"
  , "                    transitions: vec![],"
  , "                    output: Some(\"お\"),"
  , "                },"
  , "            ),"]

/-- src/to_kana_node_tree.rs:2513-2684 -/
def kanaText026 : List String :=
  ["            ("
  , "                'p',"
  , "                Node {"
  , "                    transitions: vec!["
  , "                        ("
  , "                            'a',"
  , "                            Node {"
  , "                                transitions: vec![],"
  , "                                output: Some(\"ぱ\"),"
  , "                            },"
  , "                        ),"
  , "                        ("
  , "                            'e',"
  , "                            Node {"
  , "                                transitions: vec![],"
  , "                                output: Some(\"ぺ\"),"
  , "                            },"
  , "                        ),"
  , "                        ("
  , "                            'i',"
  , "                            Node {"
  , "                                transitions: vec![],"
  , "                                output: Some(\"ぴ\"),"
  , "                            },"
  , "                        ),"
  , "                        ("
  , "                            'o',"
  , "                            Node {"
  , "                                transitions: vec![],"
  , "                                output: Some(\"ぽ\"),"
  , "                            },"
  , "                        ),"
  , "                        ("
  , "                            'p',"
  , "                            Node {"
  , "                                transitions: vec!["
  , "                                    ("
  , "                                        'a',"
  , "                                        Node {"
  , "                                            transitions: vec![],"
  , "                                            output: Some(\"っぱ\"),"
  , "                                        },"
  , "                                    ),"
  , "                                    ("
  , "                                        'e',"
  , "                                        Node {"
  , "                                            transitions: vec![],"
  , "                                            output: Some(\"っぺ\"),"
  , "                                        },"
  , "                                    ),"
  , "                                    ("
  , "                                        'i',"
  , "                                        Node {"
  , "                                            transitions: vec![],"
  , "                                            output: Some(\"っぴ\"),"
  , "                                        },"
  , "                                    ),"
  , "                                    ("
  , "                                        'o',"
  , "                                        Node {"
  , "                                            transitions: vec![],"
  , "                                            output: Some(\"っぽ\"),"
  , "                                        },"
  , "                                    ),"
  , "                                    ("
  , "                                        'u',"
  , "                                        Node {"
  , "                                            transitions: vec![],"
  , "                                            output: Some(\"っぷ\"),"
  , "                                        },"
  , "                                    ),"
  , "                                    ("
  , "                                        'y',"
  , "                                        Node {"
  , "                                            transitions: vec!["
  , "                                                ("
  , "                                                    'a',"
  , "                                                    Node {"
  , "                                                        transitions: vec![],"
  , "                                                        output: Some(\"っぴゃ\"),"
  , "                                                    },"
  , "                                                ),"
  , "                                                ("
  , "                                                    'e',"
  , "                                                    Node {"
  , "                                                        transitions: vec![],"
  , "                                                        output: Some(\"っぴぇ\"),"
  , "                                                    },"
  , "                                                ),"
  , "                                                ("
  , "                                                    'i',"
  , "                                                    Node {"
  , "                                                        transitions: vec![],"
  , "                                                        output: Some(\"っぴぃ\"),"
  , "                                                    },"
  , "                                                ),"
  , "                                                ("
  , "                                                    'o',"
  , "                                                    Node {"
  , "                                                        transitions: vec![],"
  , "                                                        output: Some(\"っぴょ\"),"
  , "                                                    },"
  , "                                                ),"
  , "                                                ("
  , "                                                    'u',"
  , "                                                    Node {"
  , "                                                        transitions: vec![],"
  , "                                                        output: Some(\"っぴゅ\"),"
  , "                                                    },"
  , "                                                ),"
  , "                                            ],"
  , "                                            output: None,"
  , "                                        },"
  , "                                    ),"
  , "                                ],"
  , "                                output: None,"
  , "                            },"
  , "                        ),"
  , "                        ("
  , "                            'u',"
  , "                            Node {"
  , "                                transitions: vec![],"
  , "                                output: Some(\"ぷ\"),"
  , "                            },"
  , "                        ),"
  , "                        ("
  , "                            'y',"
  , "                            Node {"
  , "                                transitions: vec!["
  , "                                    ("
  , "                                        'a',"
  , "                                        Node {"
  , "                                            transitions: vec![],"
  , "                                            output: Some(\"ぴゃ\"),"
  , "                                        },"
  , "                                    ),"
  , "                                    ("
  , "                                        'e',"
  , "                                        Node {"
  , "                                            transitions: vec![],"
  , "                                            output: Some(\"ぴぇ\"),"
  , "                                        },"
  , "                                    ),"
  , "                                    ("
  , "                                        'i',"
  , "                                        Node {"
  , "                                            transitions: vec![],"
  , "                                            output: Some(\"ぴぃ\"),"
  , "                                        },"
  , "                                    ),"
  , "                                    ("
  , "                                        'o',"
  , "                                        Node {"
  , "                                            transitions: vec![],"
  , "                                            output: Some(\"ぴょ\"),"
  , "                                        },"
  , "                                    ),"
  , "                                    ("
  , "                                        'u',"
  , "                                        Node {"
  , "                                            transitions: vec![],"
  , "                                            output: Some(\"ぴゅ\"),"
  , "                                        },"
  , "                                    ),"
  , "                                ],"
  , "                                output: None,"
  , "                            },"
  , "                        ),"
  , "                    ],"
  , "                    output: None,"
  , "                },"
  , "            ),"]

/-- src/to_kana_node_tree.rs:2685-2942 -/
def kanaText027 : List String :=
  ["            ("
  , "                'q',"
  , "                Node {"
  , "                    transitions: vec!["
  , "                        ("
  , "                            'a',"
  , "                            Node {"
  , "                                transitions: vec![],"
  , "                                output: Some(\"くぁ\"),"
  , "                            },"
  , "                        ),"
  , "                        ("
  , "                            'e',"
  , "                            Node {"
  , "                                transitions: vec![],"
  , "                                output: Some(\"くぇ\"),"
  , "                            },"
  , "                        ),"
  , "                        ("
  , "                            'i',"
  , "                            Node {"
  , "                                transitions: vec![],"
  , "                                output: Some(\"くぃ\"),"
  , "                            },"
  , "                        ),"
  , "                        ("
  , "                            'o',"
  , "                            Node {"
  , "                                transitions: vec![],"
  , "                                output: Some(\"くぉ\"),"
  , "                            },"
  , "                        ),"
  , "                        ("
  , "                            'q',"
  , "                            Node {"
  , "                                transitions: vec!["
  , "                                    ("
  , "                                        'a',"
  , "                                        Node {"
  , "                                            transitions: vec![],"
  , "                                            output: Some(\"っくぁ\"),"
  , "                                        },"
  , "                                    ),"
  , "                                    ("
  , "                                        'e',"
  , "                                        Node {"
  , "                                            transitions: vec![],"
  , "                                            output: Some(\"っくぇ\"),"
  , "                                        },"
  , "                                    ),"
  , "                                    ("
  , "                                        'i',"
  , "                                        Node {"
  , "                                            transitions: vec![],"
  , "                                            output: Some(\"っくぃ\"),"
  , "                                        },"
  , "                                    ),"
  , "                                    ("
  , "                                        'o',"
  , "                                        Node {"
  , "                                            transitions: vec![],"
  , "                                            output: Some(\"っくぉ\"),"
  , "                                        },"
  , "                                    ),"
  , "                                    ("
  , "                                        'u',"
  , "                                        Node {"
  , "                                            transitions: vec![],"
  , "                                            output: Some(\"っくぅ\"),"
  , "                                        },"
  , "                                    ),"
  , "                                    ("
  , "                                        'w',"
  , "                                        Node {"
  , "                                            transitions: vec!["
  , "                                                ("
  , "                                                    'a',"
  , "                                                    Node {"
  , "                                                        transitions: vec![],"
  , "                                                        output: Some(\"っくぁ\"),"
  , "                                                    },"
  , "                                                ),"
  , "                                                ("
  , "                                                    'e',"
  , "                                                    Node {"
  , "                                                        transitions: vec![],"
  , "                                                        output: Some(\"っくぇ\"),"
  , "                                                    },"
  , "                                                ),"
  , "                                                ("
  , "                                                    'i',"
  , "                                                    Node {"
  , "                                                        transitions: vec![],"
  , "                                                        output: Some(\"っくぃ\"),"
  , "                                                    },"
  , "                                                ),"
  , "                                                ("
  , "                                                    'o',"
  , "                                                    Node {"
  , "                                                        transitions: vec![],"
  , "                                                        output: Some(\"っくぉ\"),"
  , "                                                    },"
  , "                                                ),"
  , "                                                ("
  , "                                                    'u',"
  , "                                                    Node {"
  , "                                                        transitions: vec![],"
  , "                                                        output: Some(\"っくぅ\"),"
  , "                                                    },"
  , "                                                ),"
  , "                                            ],"
  , "                                            output: None,"
  , "                                        },"
  , "                                    ),"
  , "                                    ("
  , "                                        'y',"
  , "                                        Node {"
  , "                                            transitions: vec!["
  , "                                                ("
  , "                                                    'a',"
  , "                                                    Node {"
  , "                                                        transitions: vec![],"
  , "                                                        output: Some(\"っくゃ\"),"
  , "                                                    },"
  , "                                                ),"
  , "                                                ("
  , "                                                    'e',"
  , "                                                    Node {"
  , "                                                        transitions: vec![],"
  , "                                                        output: Some(\"っくぇ\"),"
  , "                                                    },"
  , "                                                ),"
  , "                                                ("
  , "                                                    'i',"
  , "                                                    Node {"
  , "                                                        transitions: vec![],"
  , "                                                        output: Some(\"っくぃ\"),"
  , "                                                    },"
  , "                                                ),"
  , "                                                ("
  , "                                                    'o',"
  , "                                                    Node {"
  , "                                                        transitions: vec![],"
  , "                                                        output: Some(\"っくょ\"),"
  , "                                                    },"
  , "                                                ),"
  , "                                                ("
  , "                                                    'u',"
  , "                                                    Node {"
  , "                                                        transitions: vec![],"
  , "                                                        output: Some(\"っくゅ\"),"
  , "                                                    },"
  , "                                                ),"
  , "                                            ],"
  , "                                            output: None,"
  , "                                        },"
  , "                                    ),"
  , "                                ],"
  , "                                output: None,"
  , "                            },"
  , "                        ),"
  , "                        ("
  , "                            'u',"
  , "                            Node {"
  , "                                transitions: vec![],"
  , "                                output: Some(\"くぅ\"),"
  , "                            },"
  , "                        ),"
  , "                        ("
  , "                            'w',"
  , "                            Node {"
  , "                                transitions: vec!["
  , "                                    ("
  , "                                        'a',"
  , "                                        Node {"
  , "                                            transitions: vec![],"
  , "                                            output: Some(\"くぁ\"),"
  , "                                        },"
  , "                                    ),"
  , "                                    ("
  , "                                        'e',"
  , "                                        Node {"
  , "                                            transitions: vec![],"
  , "                                            output: Some(\"くぇ\"),"
  , "                                        },"
  , "                                    ),"
  , "                                    ("
  , "                                        'i',"
  , "                                        Node {"
  , "                                            transitions: vec![],"
  , "                                            output: Some(\"くぃ\"),"
  , "                                        },"
  , "                                    ),"
  , "                                    ("
  , "                                        'o',"
  , "                                        Node {"
  , "                                            transitions: vec![],"
  , "                                            output: Some(\"くぉ\"),"
  , "                                        },"
  , "                                    ),"
  , "                                    ("
  , "                                        'u',"
  , "                                        Node {"
  , "                                            transitions: vec![],"
  , "                                            output: Some(\"くぅ\"),"
  , "                                        },"
  , "                                    ),"
  , "                                ],"
  , "                                output: None,"
  , "                            },"
  , "                        ),"
  , "                        ("
  , "                            'y',"
  , "                            Node {"
  , "                                transitions: vec!["
  , "                                    ("
  , "                                        'a',"
  , "                                        Node {"
  , "                                            transitions: vec![],"
  , "                                            output: Some(\"くゃ\"),"
  , "                                        },"
  , "                                    ),"
  , "                                    ("
  , "                                        'e',"
  , "                                        Node {"
  , "                                            transitions: vec![],"
  , "                                            output: Some(\"くぇ\"),"
  , "                                        },"
  , "                                    ),"
  , "                                    ("
  , "                                        'i',"
  , "                                        Node {"
  , "                                            transitions: vec![],"
  , "                                            output: Some(\"くぃ\"),"
  , "                                        },"
  , "                                    ),"
  , "                                    ("
  , "                                        'o',"
  , "                                        Node {"
  , "                                            transitions: vec![],"
  , "                                            output: Some(\"くょ\"),"
  , "                                        },"
  , "                                    ),"
  , "                                    ("
  , "                                        'u',"
  , "                                        Node {"
  , "                                            transitions: vec![],"
  , "                                            output: Some(\"くゅ\"),"
  , "                                        },"
  , "                                    ),"
  , "                                ],"
  , "                                output: None,"
  , "                            },"
  , "                        ),"
  , "                    ],"
  , "                    output: None,"
  , "                },"
  , "            ),"]

/-- src/to_kana_node_tree.rs:2943-3114 -/
def kanaText028 : List String :=
  ["            ("
  , "                'r',"
  , "                Node {"
  , "                    transitions: vec!["
  , "                        ("
  , "                            'a',"
  , "                            Node {"
  , "                                transitions: vec![],"
  , "                                output: Some(\"ら\"),"
  , "                            },"
  , "                        ),"
  , "                        ("
  , "                            'e',"
  , "                            Node {"
  , "                                transitions: vec![],"
  , "                                output: Some(\"れ\"),"
  , "                            },"
  , "                        ),"
  , "                        ("
  , "                            'i',"
  , "                            Node {"
  , "                                transitions: vec![],"
  , "                                output: Some(\"り\"),"
  , "                            },"
  , "                        ),"
  , "                        ("
  , "                            'o',"
  , "                            Node {"
  , "                                transitions: vec![],"
  , "                                output: Some(\"ろ\"),"
  , "                            },"
  , "                        ),"
  , "                        ("
  , "                            'r',"
  , "                            Node {"
  , "                                transitions: vec!["
  , "                                    ("
  , "                                        'a',"
  , "                                        Node {"
  , "                                            transitions: vec![],"
  , "                                            output: Some(\"っら\"),"
  , "                                        },"
  , "                                    ),"
  , "                                    ("
  , "                                        'e',"
  , "                                        Node {"
  , "                                            transitions: vec![],"
  , "                                            output: Some(\"っれ\"),"
  , "                                        },"
  , "                                    ),"
  , "                                    ("
  , "                                        'i',"
  , "                                        Node {"
  , "                                            transitions: vec![],"
  , "                                            output: Some(\"っり\"),"
  , "                                        },"
  , "                                    ),"
  , "                                    ("
  , "                                        'o',"
  , "                                        Node {"
  , "                                            transitions: vec![],"
  , "                                            output: Some(\"っろ\"),"
  , "                                        },"
  , "                                    ),"
  , "                                    ("
  , "                                        'u',"
  , "                                        Node {"
  , "                                            transitions: vec![],"
  , "                                            output: Some(\"っる\"),"
  , "                                        },"
  , "                                    ),"
  , "                                    ("
  , "                                        'y',"
  , "                                        Node {"
  , "                                            transitions: vec!["
  , "                                                ("
  , "                                                    'a',"
  , "                                                    Node {"
  , "                                                        transitions: vec![],"
  , "                                                        output: Some(\"っりゃ\"),"
  , "                                                    },"
  , "                                                ),"
  , "                                                ("
  , "                                                    'e',"
  , "                                                    Node {"
  , "                                                        transitions: vec![],"
  , "                                                        output: Some(\"っりぇ\"),"
  , "                                                    },"
  , "                                                ),"
  , "                                                ("
  , "                                                    'i',"
  , "                                                    Node {"
  , "                                                        transitions: vec![],"
  , "                                                        output: Some(\"っりぃ\"),"
  , "                                                    },"
  , "                                                ),"
  , "                                                ("
  , "                                                    'o',"
  , "                                                    Node {"
  , "                                                        transitions: vec![],"
  , "                                                        output: Some(\"っりょ\"),"
  , "                                                    },"
  , "                                                ),"
  , "                                                ("
  , "                                                    'u',"
  , "                                                    Node {"
  , "                                                        transitions: vec![],"
  , "                                                        output: Some(\"っりゅ\"),"
  , "                                                    },"
  , "                                                ),"
  , "                                            ],"
  , "                                            output: None,"
  , "                                        },"
  , "                                    ),"
  , "                                ],"
  , "                                output: None,"
  , "                            },"
  , "                        ),"
  , "                        ("
  , "                            'u',"
  , "                            Node {"
  , "                                transitions: vec![],"
  , "                                output: Some(\"る\"),"
  , "                            },"
  , "                        ),"
  , "                        ("
  , "                            'y',"
  , "                            Node {"
  , "                                transitions: vec!["
  , "                                    ("
  , "                                        'a',"
  , "                                        Node {"
  , "                                            transitions: vec![],"
  , "                                            output: Some(\"りゃ\"),"
  , "                                        },"
  , "                                    ),"
  , "                                    ("
  , "                                        'e',"
  , "                                        Node {"
  , "                                            transitions: vec![],"
  , "                                            output: Some(\"りぇ\"),"
  , "                                        },"
  , "                                    ),"
  , "                                    ("
  , "                                        'i',"
  , "                                        Node {"
  , "                                            transitions: vec![],"
  , "                                            output: Some(\"りぃ\"),"
  , "                                        },"
  , "                                    ),"
  , "                                    ("
  , "                                        'o',"
  , "                                        Node {"
  , "                                            transitions: vec![],"
  , "                                            output: Some(\"りょ\"),"
  , "                                        },"
  , "                                    ),"
  , "                                    ("
  , "                                        'u',"
  , "                                        Node {"
  , "                                            transitions: vec![],"
  , "                                            output: Some(\"りゅ\"),"
  , "                                        },"
  , "                                    ),"
  , "                                ],"
  , "                                output: None,"
  , "                            },"
  , "                        ),"
  , "                    ],"
  , "                    output: None,"
  , "                },"
  , "            ),"]

/-- src/to_kana_node_tree.rs:3115-3544 -/
def kanaText029 : List String :=
  ["            ("
  , "                's',"
  , "                Node {"
  , "                    transitions: vec!["
  , "                        ("
  , "                            'a',"
  , "                            Node {"
  , "                                transitions: vec![],"
  , "                                output: Some(\"さ\"),"
  , "                            },"
  , "                        ),"
  , "                        ("
  , "                            'e',"
  , "                            Node {"
  , "                                transitions: vec![],"
  , "                                output: Some(\"せ\"),"
  , "                            },"
  , "                        ),"
  , "                        ("
  , "                            'h',"
  , "                            Node {"
  , "                                transitions: vec!["
  , "                                    ("
  , "                                        'a',"
  , "                                        Node {"
  , "                                            transitions: vec![],"
  , "                                            output: Some(\"しゃ\"),"
  , "                                        },"
  , "                                    ),"
  , "                                    ("
  , "                                        'e',"
  , "                                        Node {"
  , "                                            transitions: vec![],"
  , "                                            output: Some(\"しぇ\"),"
  , "                                        },"
  , "                                    ),"
  , "                                    ("
  , "                                        'i',"
  , "                                        Node {"
  , "                                            transitions: vec![],"
  , "                                            output: Some(\"し\"),"
  , "                                        },"
  , "                                    ),"
  , "                                    ("
  , "                                        'o',"
  , "                                        Node {"
  , "                                            transitions: vec![],"
  , "                                            output: Some(\"しょ\"),"
  , "                                        },"
  , "                                    ),"
  , "                                    ("
  , "                                        'u',"
  , "                                        Node {"
  , "                                            transitions: vec![],"
  , "                                            output: Some(\"しゅ\"),"
  , "                                        },"
  , "                                    ),"
  , "                                    ("
  , "                                        'y',"
  , "                                        Node {"
  , "                                            transitions: vec!["
  , "                                                ("
  , "                                                    'a',"
  , "                                                    Node {"
  , "                                                        transitions: vec![],"
  , "                                                        output: Some(\"しゃ\"),"
  , "                                                    },"
  , "                                                ),"
  , "                                                ("
  , "                                                    'e',"
  , "                                                    Node {"
  , "                                                        transitions: vec![],"
  , "                                                        output: Some(\"しぇ\"),"
  , "                                                    },"
  , "                                                ),"
  , "                                                ("
  , "                                                    'i',"
  , "                                                    Node {"
  , "                                                        transitions: vec![],"
  , "                                                        output: Some(\"しぃ\"),"
  , "                                                    },"
  , "                                                ),"
  , "                                                ("
  , "                                                    'o',"
  , "                                                    Node {"
  , "                                                        transitions: vec![],"
  , "                                                        output: Some(\"しょ\"),"
  , "                                                    },"
  , "                                                ),"
  , "                                                ("
  , "                                                    'u',"
  , "                                                    Node {"
  , "                                                        transitions: vec![],"
  , "                                                        output: Some(\"しゅ\"),"
  , "                                                    },"
  , "                                                ),"
  , "                                            ],"
  , "                                            output: None,"
  , "                                        },"
  , "                                    ),"
  , "                                ],"
  , "                                output: None,"
  , "                            },"
  , "                        ),"
  , "                        ("
  , "                            'i',"
  , "                            Node {"
  , "                                transitions: vec![],"
  , "                                output: Some(\"し\"),"
  , "                            },"
  , "                        ),"
  , "                        ("
  , "                            'o',"
  , "                            Node {"
  , "                                transitions: vec![],"
  , "                                output: Some(\"そ\"),"
  , "                            },"
  , "                        ),"
  , "                        ("
  , "                            's',"
  , "                            Node {"
  , "                                transitions: vec!["
  , "                                    ("
  , "                                        'a',"
  , "                                        Node {"
  , "                                            transitions: vec![],"
  , "                                            output: Some(\"っさ\"),"
  , "                                        },"
  , "                                    ),"
  , "                                    ("
  , "                                        'e',"
  , "                                        Node {"
  , "                                            transitions: vec![],"
  , "                                            output: Some(\"っせ\"),"
  , "                                        },"
  , "                                    ),"
  , "                                    ("
  , "                                        'h',"
  , "                                        Node {"
  , "                                            transitions: vec!["
  , "                                                ("
  , "                                                    'a',"
  , "                                                    Node {"
  , "                                                        transitions: vec![],"
  , "                                                        output: Some(\"っしゃ\"),"
  , "                                                    },"
  , "                                                ),"
  , "                                                ("
  , "                                                    'e',"
  , "                                                    Node {"
  , "                                                        transitions: vec![],"
  , "                                                        output: Some(\"っしぇ\"),"
  , "                                                    },"
  , "                                                ),"
  , "                                                ("
  , "                                                    'i',"
  , "                                                    Node {"
  , "                                                        transitions: vec![],"
  , "                                                        output: Some(\"っし\"),"
  , "                                                    },"
  , "                                                ),"
  , "                                                ("
  , "                                                    'o',"
  , "                                                    Node {"
  , "                                                        transitions: vec![],"
  , "                                                        output: Some(\"っしょ\"),"
  , "                                                    },"
  , "                                                ),"
  , "                                                ("
  , "                                                    'u',"
  , "                                                    Node {"
  , "                                                        transitions: vec![],"
  , "                                                        output: Some(\"っしゅ\"),"
  , "                                                    },"
  , "                                                ),"
  , "                                                ("
  , "                                                    'y',"
  , "                                                    Node {"
  , "                                                        transitions: vec!["
  , "                                                            ("
  , "                                                                'a',"
  , "                                                                Node {"
  , "                                                                    transitions: vec![],"
  , "                                                                    output: Some(\"っしゃ\"),"
  , "                                                                },"
  , "                                                            ),"
  , "                                                            ("
  , "                                                                'e',"
  , "                                                                Node {"
  , "                                                                    transitions: vec![],"
  , "                                                                    output: Some(\"っしぇ\"),"
  , "                                                                },"
  , "                                                            ),"
  , "                                                            ("
  , "                                                                'i',"
  , "                                                                Node {"
  , "                                                                    transitions: vec![],"
  , "                                                                    output: Some(\"っしぃ\"),"
  , "                                                                },"
  , "                                                            ),"
  , "                                                            ("
  , "                                                                'o',"
  , "                                                                Node {"
  , "                                                                    transitions: vec![],"
  , "                                                                    output: Some(\"っしょ\"),"
  , "                                                                },"
  , "                                                            ),"
  , "                                                            ("
  , "                                                                'u',"
  , "                                                                Node {"
  , "                                                                    transitions: vec![],"
  , "                                                                    output: Some(\"っしゅ\"),"
  , "                                                                },"
  , "                                                            ),"
  , "                                                        ],"
  , "                                                        output: None,"
  , "                                                    },"
  , "                                                ),"
  , "                                            ],"
  , "                                            output: None,"
  , "                                        },"
  , "                                    ),"
  , "                                    ("
  , "                                        'i',"
  , "                                        Node {"
  , "                                            transitions: vec![],"
  , "                                            output: Some(\"っし\"),"
  , "                                        },"
  , "                                    ),"
  , "                                    ("
  , "                                        'o',"
  , "                                        Node {"
  , "                                            transitions: vec![],"
  , "                                            output: Some(\"っそ\"),"
  , "                                        },"
  , "                                    ),"
  , "                                    ("
  , "                                        'u',"
  , "                                        Node {"
  , "                                            transitions: vec![],"
  , "                                            output: Some(\"っす\"),"
  , "                                        },"
  , "                                    ),"
  , "                                    ("
  , "                                        'w',"
  , "                                        Node {"
  , "                                            transitions: vec!["
  , "                                                ("
  , "                                                    'a',"
  , "                                                    Node {"
  , "                                                        transitions: vec![],"
  , "                                                        output: Some(\"っすぁ\"),"
  , "                                                    },"
  , "                                                ),"
  , "                                                ("
  , "                                                    'e',"
  , "                                                    Node {"
  , "                                                        transitions: vec![],"
  , "                                                        output: Some(\"っすぇ\"),"
  , "                                                    },"
  , "                                                ),"
  , "                                                ("
  , "                                                    'i',"
  , "                                                    Node {"
  , "                                                        transitions: vec![],"
  , "                                                        output: Some(\"っすぃ\"),"
  , "                                                    },"
  , "                                                ),"
  , "                                                ("
  , "                                                    'o',"
  , "                                                    Node {"
  , "                                                        transitions: vec![],"
  , "                                                        output: Some(\"っすぉ\"),"
  , "                                                    },"
  , "                                                ),"
  , "                                                ("
  , "                                                    'u',"
  , "                                                    Node {"
  , "                                                        transitions: vec![],"
  , "                                                        output: Some(\"っすぅ\"),"
  , "                                                    },"
  , "                                                ),"
  , "                                            ],"
  , "                                            output: None,"
  , "                                        },"
  , "                                    ),"
  , "                                    ("
  , "                                        'y',"
  , "                                        Node {"
  , "                                            transitions: vec!["
  , "                                                ("
  , "                                                    'a',"
  , "                                                    Node {"
  , "                                                        transitions: vec![],"
  , "                                                        output: Some(\"っしゃ\"),"
  , "                                                    },"
  , "                                                ),"
  , "                                                ("
  , "                                                    'e',"
  , "                                                    Node {"
  , "                                                        transitions: vec![],"
  , "                                                        output: Some(\"っしぇ\"),"
  , "                                                    },"
  , "                                                ),"
  , "                                                ("
  , "                                                    'i',"
  , "                                                    Node {"
  , "                                                        transitions: vec![],"
  , "                                                        output: Some(\"っしぃ\"),"
  , "                                                    },"
  , "                                                ),"
  , "                                                ("
  , "                                                    'o',"
  , "                                                    Node {"
  , "                                                        transitions: vec![],"
  , "                                                        output: Some(\"っしょ\"),"
  , "                                                    },"
  , "                                                ),"
  , "                                                ("
  , "                                                    'u',"
  , "                                                    Node {"
  , "                                                        transitions: vec![],"
  , "                                                        output: Some(\"っしゅ\"),"
  , "                                                    },"
  , "                                                ),"
  , "                                            ],"
  , "                                            output: None,"
  , "                                        },"
  , "                                    ),"
  , "                                ],"
  , "                                output: None,"
  , "                            },"
  , "                        ),"
  , "                        ("
  , "                            'u',"
  , "                            Node {"
  , "                                transitions: vec![],"
  , "                                output: Some(\"す\"),"
  , "                            },"
  , "                        ),"
  , "                        ("
  , "                            'w',"
  , "                            Node {"
  , "                                transitions: vec!["
  , "                                    ("
  , "                                        'a',"
  , "                                        Node {"
  , "                                            transitions: vec![],"
  , "                                            output: Some(\"すぁ\"),"
  , "                                        },"
  , "                                    ),"
  , "                                    ("
  , "                                        'e',"
  , "                                        Node {"
  , "                                            transitions: vec![],"
  , "                                            output: Some(\"すぇ\"),"
  , "                                        },"
  , "                                    ),"
  , "                                    ("
  , "                                        'i',"
  , "                                        Node {"
  , "                                            transitions: vec![],"
  , "                                            output: Some(\"すぃ\"),"
  , "                                        },"
  , "                                    ),"
  , "                                    ("
  , "                                        'o',"
  , "                                        Node {"
  , "                                            transitions: vec![],"
  , "                                            output: Some(\"すぉ\"),"
  , "                                        },"
  , "                                    ),"
  , "                                    ("
  , "                                        'u',"
  , "                                        Node {"
  , "                                            transitions: vec![],"
  , "                                            output: Some(\"すぅ\"),"
  , "                                        },"
  , "                                    ),"
  , "                                ],"
  , "                                output: None,"
  , "                            },"
  , "                        ),"
  , "                        ("
  , "                            'y',"
  , "                            Node {"
  , "                                transitions: vec!["
  , "                                    ("
  , "                                        'a',"
  , "                                        Node {"
  , "                                            transitions: vec![],"
  , "                                            output: Some(\"しゃ\"),"
  , "                                        },"
  , "                                    ),"
  , "                                    ("
  , "                                        'e',"
  , "                                        Node {"
  , "                                            transitions: vec![],"
  , "                                            output: Some(\"しぇ\"),"
  , "                                        },"
  , "                                    ),"
  , "                                    ("
  , "                                        'i',"
  , "                                        Node {"
  , "                                            transitions: vec![],"
  , "                                            output: Some(\"しぃ\"),"
  , "                                        },"
  , "                                    ),"
  , "                                    ("
  , "                                        'o',"
  , "                                        Node {"
  , "                                            transitions: vec![],"
  , "                                            output: Some(\"しょ\"),"
  , "                                        },"
  , "                                    ),"
  , "                                    ("
  , "                                        'u',"
  , "                                        Node {"
  , "                                            transitions: vec![],"
  , "                                            output: Some(\"しゅ\"),"
  , "                                        },"
  , "                                    ),"
  , "                                ],"
  , "                                output: None,"
  , "                            },"
  , "                        ),"
  , "                    ],"
  , "                    output: None,"
  , "                },"
  , "            ),"]

/-- src/to_kana_node_tree.rs:3545-3974 -/
def kanaText030 : List String :=
  ["            ("
  , "                't',"
  , "                Node {"
  , "                    transitions: vec!["
  , "                        ("
  , "                            'a',"
  , "                            Node {"
  , "                                transitions: vec![],"
  , "                                output: Some(\"た\"),"
  , "                            },"
  , "                        ),"
  , "                        ("
  , "                            'e',"
  , "                            Node {"
  , "                                transitions: vec![],"
  , "                                output: Some(\"て\"),"
  , "                            },"
  , "                        ),"
  , "                        ("
  , "                            'h',"
  , "                            Node {"
  , "                                transitions: vec!["
  , "                                    ("
  , "                                        'a',"
  , "                                        Node {"
  , "                                            transitions: vec![],"
  , "                                            output: Some(\"てゃ\"),"
  , "                                        },"
  , "                                    ),"
  , "                                    ("
  , "                                        'e',"
  , "                                        Node {"
  , "                                            transitions: vec![],"
  , "                                            output: Some(\"てぇ\"),"
  , "                                        },"
  , "                                    ),"
  , "                                    ("
  , "                                        'i',"
  , "                                        Node {"
  , "                                            transitions: vec![],"
  , "                                            output: Some(\"てぃ\"),"
  , "                                        },"
  , "                                    ),"
  , "                                    ("
  , "                                        'o',"
  , "                                        Node {"
  , "                                            transitions: vec![],"
  , "                                            output: Some(\"てょ\"),"
  , "                                        },"
  , "                                    ),"
  , "                                    ("
  , "                                        'u',"
  , "                                        Node {"
  , "                                            transitions: vec![],"
  , "                                            output: Some(\"てゅ\"),"
  , "                                        },"
  , "                                    ),"
  , "                                ],"
  , "                                output: None,"
  , "                            },"
  , "                        ),"
  , "                        ("
  , "                            'i',"
  , "                            Node {"
  , "                                transitions: vec![],"
  , "                                output: Some(\"ち\"),"
  , "                            },"
  , "                        ),"
  , "                        ("
  , "                            'o',"
  , "                            Node {"
  , "                                transitions: vec![],"
  , "                                output: Some(\"と\"),"
  , "                            },"
  , "                        ),"
  , "                        ("
  , "                            's',"
  , "                            Node {"
  , "                                transitions: vec!["
  , "                                    ("
  , "                                        'a',"
  , "                                        Node {"
  , "                                            transitions: vec![],"
  , "                                            output: Some(\"つぁ\"),"
  , "                                        },"
  , "                                    ),"
  , "                                    ("
  , "                                        'e',"
  , "                                        Node {"
  , "                                            transitions: vec![],"
  , "                                            output: Some(\"つぇ\"),"
  , "                                        },"
  , "                                    ),"
  , "                                    ("
  , "                                        'i',"
  , "                                        Node {"
  , "                                            transitions: vec![],"
  , "                                            output: Some(\"つぃ\"),"
  , "                                        },"
  , "                                    ),"
  , "                                    ("
  , "                                        'o',"
  , "                                        Node {"
  , "                                            transitions: vec![],"
  , "                                            output: Some(\"つぉ\"),"
  , "                                        },"
  , "                                    ),"
  , "                                    ("
  , "                                        'u',"
  , "                                        Node {"
  , "                                            transitions: vec![],"
  , "                                            output: Some(\"つ\"),"
  , "                                        },"
  , "                                    ),"
  , "                                ],"
  , "                                output: None,"
  , "                            },"
  , "                        ),"
  , "                        ("
  , "                            't',"
  , "                            Node {"
  , "                                transitions: vec!["
  , "                                    ("
  , "                                        'a',"
  , "                                        Node {"
  , "                                            transitions: vec![],"
  , "                                            output: Some(\"った\"),"
  , "                                        },"
  , "                                    ),"
  , "                                    ("
  , "                                        'e',"
  , "                                        Node {"
  , "                                            transitions: vec![],"
  , "                                            output: Some(\"って\"),"
  , "                                        },"
  , "                                    ),"
  , "                                    ("
  , "                                        'h',"
  , "                                        Node {"
  , "                                            transitions: vec!["
  , "                                                ("
  , "                                                    'a',"
  , "                                                    Node {"
  , "                                                        transitions: vec![],"
  , "                                                        output: Some(\"ってゃ\"),"
  , "                                                    },"
  , "                                                ),"
  , "                                                ("
  , "                                                    'e',"
  , "                                                    Node {"
  , "                                                        transitions: vec![],"
  , "                                                        output: Some(\"ってぇ\"),"
  , "                                                    },"
  , "                                                ),"
  , "                                                ("
  , "                                                    'i',"
  , "                                                    Node {"
  , "                                                        transitions: vec![],"
  , "                                                        output: Some(\"ってぃ\"),"
  , "                                                    },"
  , "                                                ),"
  , "                                                ("
  , "                                                    'o',"
  , "                                                    Node {"
  , "                                                        transitions: vec![],"
  , "                                                        output: Some(\"ってょ\"),"
  , "                                                    },"
  , "                                                ),"
  , "                                                ("
  , "                                                    'u',"
  , "                                                    Node {"
  , "                                                        transitions: vec![],"
  , "                                                        output: Some(\"ってゅ\"),"
  , "                                                    },"
  , "                                                ),"
  , "                                            ],"
  , "                                            output: None,"
  , "                                        },"
  , "                                    ),"
  , "                                    ("
  , "                                        'i',"
  , "                                        Node {"
  , "                                            transitions: vec![],"
  , "                                            output: Some(\"っち\"),"
  , "                                        },"
  , "                                    ),"
  , "                                    ("
  , "                                        'o',"
  , "                                        Node {"
  , "                                            transitions: vec![],"
  , "                                            output: Some(\"っと\"),"
  , "                                        },"
  , "                                    ),"
  , "                                    ("
  , "                                        's',"
  , "                                        Node {"
  , "                                            transitions: vec!["
  , "                                                ("
  , "                                                    'a',"
  , "                                                    Node {"
  , "                                                        transitions: vec![],"
  , "                                                        output: Some(\"っつぁ\"),"
  , "                                                    },"
  , "                                                ),"
  , "                                                ("
  , "                                                    'e',"
  , "                                                    Node {"
  , "                                                        transitions: vec![],"
  , "                                                        output: Some(\"っつぇ\"),"
  , "                                                    },"
  , "                                                ),"
  , "                                                ("
  , "                                                    'i',"
  , "                                                    Node {"
  , "                                                        transitions: vec![],"
  , "                                                        output: Some(\"っつぃ\"),"
  , "                                                    },"
  , "                                                ),"
  , "                                                ("
  , "                                                    'o',"
  , "                                                    Node {"
  , "                                                        transitions: vec![],"
  , "                                                        output: Some(\"っつぉ\"),"
  , "                                                    },"
  , "                                                ),"
  , "                                                ("
  , "                                                    'u',"
  , "                                                    Node {"
  , "                                                        transitions: vec![],"
  , "                                                        output: Some(\"っつ\"),"
  , "                                                    },"
  , "                                                ),"
  , "                                            ],"
  , "                                            output: None,"
  , "                                        },"
  , "                                    ),"
  , "                                    ("
  , "                                        'u',"
  , "                                        Node {"
  , "                                            transitions: vec![],"
  , "                                            output: Some(\"っつ\"),"
  , "                                        },"
  , "                                    ),"
  , "                                    ("
  , "                                        'w',"
  , "                                        Node {"
  , "                                            transitions: vec!["
  , "                                                ("
  , "                                                    'a',"
  , "                                                    Node {"
  , "                                                        transitions: vec![],"
  , "                                                        output: Some(\"っとぁ\"),"
  , "                                                    },"
  , "                                                ),"
  , "                                                ("
  , "                                                    'e',"
  , "                                                    Node {"
  , "                                                        transitions: vec![],"
  , "                                                        output: Some(\"っとぇ\"),"
  , "                                                    },"
  , "                                                ),"
  , "                                                ("
  , "                                                    'i',"
  , "                                                    Node {"
  , "                                                        transitions: vec![],"
  , "                                                        output: Some(\"っとぃ\"),"
  , "                                                    },"
  , "                                                ),"
  , "                                                ("
  , "                                                    'o',"
  , "                                                    Node {"
  , "                                                        transitions: vec![],"
  , "                                                        output: Some(\"っとぉ\"),"
  , "                                                    },"
  , "                                                ),"
  , "                                                ("
  , "                                                    'u',"
  , "                                                    Node {"
  , "                                                        transitions: vec![],"
  , "                                                        output: Some(\"っとぅ\"),"
  , "                                                    },"
  , "                                                ),"
  , "                                            ],"
  , "                                            output: None,"
  , "                                        },"
  , "                                    ),"
  , "                                    ("
  , "                                        'y',"
  , "                                        Node {"
  , "                                            transitions: vec!["
  , "                                                ("
  , "                                                    'a',"
  , "                                                    Node {"
  , "                                                        transitions: vec![],"
  , "                                                        output: Some(\"っちゃ\"),"
  , "                                                    },"
  , "                                                ),"
  , "                                                ("
  , "                                                    'e',"
  , "                                                    Node {"
  , "                                                        transitions: vec![],"
  , "                                                        output: Some(\"っちぇ\"),"
  , "                                                    },"
  , "                                                ),"
  , "                                                ("
  , "                                                    'i',"
  , "                                                    Node {"
  , "                                                        transitions: vec![],"
  , "                                                        output: Some(\"っちぃ\"),"
  , "                                                    },"
  , "                                                ),"
  , "                                                ("
  , "                                                    'o',"
  , "                                                    Node {"
  , "                                                        transitions: vec![],"
  , "                                                        output: Some(\"っちょ\"),"
  , "                                                    },"
  , "                                                ),"
  , "                                                ("
  , "                                                    'u',"
  , "                                                    Node {"
  , "                                                        transitions: vec![],"
  , "                                                        output: Some(\"っちゅ\"),"
  , "                                                    },"
  , "                                                ),"
  , "                                            ],"
  , "                                            output: None,"
  , "                                        },"
  , "                                    ),"
  , "                                ],"
  , "                                output: None,"
  , "                            },"
  , "                        ),"
  , "                        ("
  , "                            'u',"
  , "                            Node {"
  , "                                transitions: vec![],"
  , "                                output: Some(\"つ\"),"
  , "                            },"
  , "                        ),"
  , "                        ("
  , "                            'w',"
  , "                            Node {"
  , "                                transitions: vec!["
  , "                                    ("
  , "                                        'a',"
  , "                                        Node {"
  , "                                            transitions: vec![],"
  , "                                            output: Some(\"とぁ\"),"
  , "                                        },"
  , "                                    ),"
  , "                                    ("
  , "                                        'e',"
  , "                                        Node {"
  , "                                            transitions: vec![],"
  , "                                            output: Some(\"とぇ\"),"
  , "                                        },"
  , "                                    ),"
  , "                                    ("
  , "                                        'i',"
  , "                                        Node {"
  , "                                            transitions: vec![],"
  , "                                            output: Some(\"とぃ\"),"
  , "                                        },"
  , "                                    ),"
  , "                                    ("
  , "                                        'o',"
  , "                                        Node {"
  , "                                            transitions: vec![],"
  , "                                            output: Some(\"とぉ\"),"
  , "                                        },"
  , "                                    ),"
  , "                                    ("
  , "                                        'u',"
  , "                                        Node {"
  , "                                            transitions: vec![],"
  , "                                            output: Some(\"とぅ\"),"
  , "                                        },"
  , "                                    ),"
  , "                                ],"
  , "                                output: None,"
  , "                            },"
  , "                        ),"
  , "                        ("
  , "                            'y',"
  , "                            Node {"
  , "                                transitions: vec!["
  , "                                    ("
  , "                                        'a',"
  , "                                        Node {"
  , "                                            transitions: vec![],"
  , "                                            output: Some(\"ちゃ\"),"
  , "                                        },"
  , "                                    ),"
  , "                                    ("
  , "                                        'e',"
  , "                                        Node {"
  , "                                            transitions: vec![],"
  , "                                            output: Some(\"ちぇ\"),"
  , "                                        },"
  , "                                    ),"
  , "                                    ("
  , "                                        'i',"
  , "                                        Node {"
  , "                                            transitions: vec![],"
  , "                                            output: Some(\"ちぃ\"),"
  , "                                        },"
  , "                                    ),"
  , "                                    ("
  , "                                        'o',"
  , "                                        Node {"
  , "                                            transitions: vec![],"
  , "                                            output: Some(\"ちょ\"),"
  , "                                        },"
  , "                                    ),"
  , "                                    ("
  , "                                        'u',"
  , "                                        Node {"
  , "                                            transitions: vec![],"
  , "                                            output: Some(\"ちゅ\"),"
  , "                                        },"
  , "                                    ),"
  , "                                ],"
  , "                                output: None,"
  , "                            },"
  , "                        ),"
  , "                    ],"
  , "                    output: None,"
  , "                },"
  , "            ),"]

/-- src/to_kana_node_tree.rs:3975-3981 -/
def kanaText031 : List String :=
  ["            ("
  , "                'u',"
  , "                Node {"
  , "                    transitions: vec![],"
  , "                    output: Some(\"う\"),"
  , "                },"
  , "            ),"]

/-- src/to_kana_node_tree.rs:3982-4153 -/
def kanaText032 : List String :=
  ["            ("
  , "                'v',"
  , "                Node {"
  , "                    transitions: vec!["
  , "                        ("
  , "                            'a',"
  , "                            Node {"
  , "                                transitions: vec![],"
  , "                                output: Some(\"ゔぁ\"),"
  , "                            },"
  , "                        ),"
  , "                        ("
  , "                            'e',"
  , "                            Node {"
  , "                                transitions: vec![],"
  , "                                output: Some(\"ゔぇ\"),"
  , "                            },"
  , "                        ),"
  , "                        ("
  , "                            'i',"
  , "                            Node {"
  , "                                transitions: vec![],"
  , "                                output: Some(\"ゔぃ\"),"
  , "                            },"
  , "                        ),"
  , "                        ("
  , "                            'o',"
  , "                            Node {"
  , "                                transitions: vec![],"
  , "                                output: Some(\"ゔぉ\"),"
  , "                            },"
  , "                        ),"
  , "                        ("
  , "                            'u',"
  , "                            Node {"
  , "                                transitions: vec![],"
  , "                                output: Some(\"ゔ\"),"
  , "                            },"
  , "                        ),"
  , "                        ("
  , "                            'v',"
  , "                            Node {"
  , "                                transitions: vec!["
  , "                                    ("
  , "                                        'a',"
  , "                                        Node {"
  , "                                            transitions: vec![],"
  , "                                            output: Some(\"っゔぁ\"),"
  , "                                        },"
  , "                                    ),"
  , "                                    ("
  , "                                        'e',"
  , "                                        Node {"
  , "                                            transitions: vec![],"
  , "                                            output: Some(\"っゔぇ\"),"
  , "                                        },"
  , "                                    ),"
  , "                                    ("
  , "                                        'i',"
  , "                                        Node {"
  , "                                            transitions: vec![],"
  , "                                            output: Some(\"っゔぃ\"),"
  , "                                        },"
  , "                                    ),"
  , "                                    ("
  , "                                        'o',"
  , "                                        Node {"
  , "                                            transitions: vec![],"
  , "                                            output: Some(\"っゔぉ\"),"
  , "                                        },"
  , "                                    ),"
  , "                                    ("
  , "                                        'u',"
  , "                                        Node {"
  , "                                            transitions: vec![],"
  , "                                            output: Some(\"っゔ\"),"
  , "                                        },"
  , "                                    ),"
  , "                                    ("
  , "                                        'y',"
  , "                                        Node {"
  , "                                            transitions: vec!["
  , "                                                ("
  , "                                                    'a',"
  , "                                                    Node {"
  , "                                                        transitions: vec![],"
  , "                                                        output: Some(\"っゔゃ\"),"
  , "                                                    },"
  , "                                                ),"
  , "                                                ("
  , "                                                    'e',"
  , "                                                    Node {"
  , "                                                        transitions: vec![],"
  , "                                                        output: Some(\"っゔぇ\"),"
  , "                                                    },"
  , "                                                ),"
  , "                                                ("
  , "                                                    'i',"
  , "                                                    Node {"
  , "                                                        transitions: vec![],"
  , "                                                        output: Some(\"っゔぃ\"),"
  , "                                                    },"
  , "                                                ),"
  , "                                                ("
  , "                                                    'o',"
  , "                                                    Node {"
  , "                                                        transitions: vec![],"
  , "                                                        output: Some(\"っゔょ\"),"
  , "                                                    },"
  , "                                                ),"
  , "                                                ("
  , "                                                    'u',"
  , "                                                    Node {"
  , "                                                        transitions: vec![],"
  , "                                                        output: Some(\"っゔゅ\"),"
  , "                                                    },"
  , "                                                ),"
  , "                                            ],"
  , "                                            output: None,"
  , "                                        },"
  , "                                    ),"
  , "                                ],"
  , "                                output: None,"
  , "                            },"
  , "                        ),"
  , "                        ("
  , "                            'y',"
  , "                            Node {"
  , "                                transitions: vec!["
  , "                                    ("
  , "                                        'a',"
  , "                                        Node {"
  , "                                            transitions: vec![],"
  , "                                            output: Some(\"ゔゃ\"),"
  , "                                        },"
  , "                                    ),"
  , "                                    ("
  , "                                        'e',"
  , "                                        Node {"
  , "                                            transitions: vec![],"
  , "                                            output: Some(\"ゔぇ\"),"
  , "                                        },"
  , "                                    ),"
  , "                                    ("
  , "                                        'i',"
  , "                                        Node {"
  , "                                            transitions: vec![],"
  , "                                            output: Some(\"ゔぃ\"),"
  , "                                        },"
  , "                                    ),"
  , "                                    ("
  , "                                        'o',"
  , "                                        Node {"
  , "                                            transitions: vec![],"
  , "                                            output: Some(\"ゔょ\"),"
  , "                                        },"
  , "                                    ),"
  , "                                    ("
  , "                                        'u',"
  , "                                        Node {"
  , "                                            transitions: vec![],"
  , "                                            output: Some(\"ゔゅ\"),"
  , "                                        },"
  , "                                    ),"
  , "                                ],"
  , "                                output: None,"
  , "                            },"
  , "                        ),"
  , "                    ],"
  , "                    output: None,"
  , "                },"
  , "            ),"]

/-- src/to_kana_node_tree.rs:4154-4325 -/
def kanaText033 : List String :=
  ["            ("
  , "                'w',"
  , "                Node {"
  , "                    transitions: vec!["
  , "                        ("
  , "                            'a',"
  , "                            Node {"
  , "                                transitions: vec![],"
  , "                                output: Some(\"わ\"),"
  , "                            },"
  , "                        ),"
  , "                        ("
  , "                            'e',"
  , "                            Node {"
  , "                                transitions: vec![],"
  , "                                output: Some(\"うぇ\"),"
  , "                            },"
  , "                        ),"
  , "                        ("
  , "                            'h',"
  , "                            Node {"
  , "                                transitions: vec!["
  , "                                    ("
  , "                                        'a',"
  , "                                        Node {"
  , "                                            transitions: vec![],"
  , "                                            output: Some(\"うぁ\"),"
  , "                                        },"
  , "                                    ),"
  , "                                    ("
  , "                                        'e',"
  , "                                        Node {"
  , "                                            transitions: vec![],"
  , "                                            output: Some(\"うぇ\"),"
  , "                                        },"
  , "                                    ),"
  , "                                    ("
  , "                                        'i',"
  , "                                        Node {"
  , "                                            transitions: vec![],"
  , "                                            output: Some(\"うぃ\"),"
  , "                                        },"
  , "                                    ),"
  , "                                    ("
  , "                                        'o',"
  , "                                        Node {"
  , "                                            transitions: vec![],"
  , "                                            output: Some(\"うぉ\"),"
  , "                                        },"
  , "                                    ),"
  , "                                    ("
  , "                                        'u',"
  , "                                        Node {"
  , "                                            transitions: vec![],"
  , "                                            output: Some(\"う\"),"
  , "                                        },"
  , "                                    ),"
  , "                                ],"
  , "                                output: None,"
  , "                            },"
  , "                        ),"
  , "                        ("
  , "                            'i',"
  , "                            Node {"
  , "                                transitions: vec![],"
  , "                                output: Some(\"うぃ\"),"
  , "                            },"
  , "                        ),"
  , "                        ("
  , "                            'o',"
  , "                            Node {"
  , "                                transitions: vec![],"
  , "                                output: Some(\"を\"),"
  , "                            },"
  , "                        ),"
  , "                        ("
  , "                            'u',"
  , "                            Node {"
  , "                                transitions: vec![],"
  , "                                output: Some(\"う\"),"
  , "                            },"
  , "                        ),"
  , "                        ("
  , "                            'w',"
  , "                            Node {"
  , "                                transitions: vec!["
  , "                                    ("
  , "                                        'a',"
  , "                                        Node {"
  , "                                            transitions: vec![],"
  , "                                            output: Some(\"っわ\"),"
  , "                                        },"
  , "                                    ),"
  , "                                    ("
  , "                                        'e',"
  , "                                        Node {"
  , "                                            transitions: vec![],"
  , "                                            output: Some(\"っうぇ\"),"
  , "                                        },"
  , "                                    ),"
  , "                                    ("
  , "                                        'h',"
  , "                                        Node {"
  , "                                            transitions: vec!["
  , "                                                ("
  , "                                                    'a',"
  , "                                                    Node {"
  , "                                                        transitions: vec![],"
  , "                                                        output: Some(\"っうぁ\"),"
  , "                                                    },"
  , "                                                ),"
  , "                                                ("
  , "                                                    'e',"
  , "                                                    Node {"
  , "                                                        transitions: vec![],"
  , "                                                        output: Some(\"っうぇ\"),"
  , "                                                    },"
  , "                                                ),"
  , "                                                ("
  , "                                                    'i',"
  , "                                                    Node {"
  , "                                                        transitions: vec![],"
  , "                                                        output: Some(\"っうぃ\"),"
  , "                                                    },"
  , "                                                ),"
  , "                                                ("
  , "                                                    'o',"
  , "                                                    Node {"
  , "                                                        transitions: vec![],"
  , "                                                        output: Some(\"っうぉ\"),"
  , "                                                    },"
  , "                                                ),"
  , "                                                ("
  , "                                                    'u',"
  , "                                                    Node {"
  , "                                                        transitions: vec![],"
  , "                                                        output: Some(\"っう\"),"
  , "                                                    },"
  , "                                                ),"
  , "                                            ],"
  , "                                            output: None,"
  , "                                        },"
  , "                                    ),"
  , "                                    ("
  , "                                        'i',"
  , "                                        Node {"
  , "                                            transitions: vec![],"
  , "                                            output: Some(\"っうぃ\"),"
  , "                                        },"
  , "                                    ),"
  , "                                    ("
  , "                                        'o',"
  , "                                        Node {"
  , "                                            transitions: vec![],"
  , "                                            output: Some(\"っを\"),"
  , "                                        },"
  , "                                    ),"
  , "                                    ("
  , "                                        'u',"
  , "                                        Node {"
  , "                                            transitions: vec![],"
  , "                                            output: Some(\"っう\"),"
  , "                                        },"
  , "                                    ),"
  , "                                ],"
  , "                                output: None,"
  , "                            },"
  , "                        ),"
  , "                    ],"
  , "                    output: None,"
  , "                },"
  , "            ),"]

/-- src/to_kana_node_tree.rs:4326-4503 -/
def kanaText034 : List String :=
  ["            ("
  , "                'x',"
  , "                Node {"
  , "                    transitions: vec!["
  , "                        ("
  , "                            'a',"
  , "                            Node {"
  , "                                transitions: vec![],"
  , "                                output: Some(\"ぁ\"),"
  , "                            },"
  , "                        ),"
  , "                        ("
  , "                            'c',"
  , "                            Node {"
  , "                                transitions: vec!["
  , "                                    ("
  , "                                        'a',"
  , "                                        Node {"
  , "                                            transitions: vec![],"
  , "                                            output: Some(\"ヵ\"),"
  , "                                        },"
  , "                                    ),"
  , "                                    ("
  , "                                        'e',"
  , "                                        Node {"
  , "                                            transitions: vec![],"
  , "                                            output: Some(\"ヶ\"),"
  , "                                        },"
  , "                                    ),"
  , "                                ],"
  , "                                output: None,"
  , "                            },"
  , "                        ),"
  , "                        ("
  , "                            'e',"
  , "                            Node {"
  , "                                transitions: vec![],"
  , "                                output: Some(\"ぇ\"),"
  , "                            },"
  , "                        ),"
  , "                        ("
  , "                            'i',"
  , "                            Node {"
  , "                                transitions: vec![],"
  , "                                output: Some(\"ぃ\"),"
  , "                            },"
  , "                        ),"
  , "                        ("
  , "                            'k',"
  , "                            Node {"
  , "                                transitions: vec!["
  , "                                    ("
  , "                                        'a',"
  , "                                        Node {"
  , "                                            transitions: vec![],"
  , "                                            output: Some(\"ヵ\"),"
  , "                                        },"
  , "                                    ),"
  , "                                    ("
  , "                                        'e',"
  , "                                        Node {"
  , "                                            transitions: vec![],"
  , "                                            output: Some(\"ヶ\"),"
  , "                                        },"
  , "                                    ),"
  , "                                ],"
  , "                                output: None,"
  , "                            },"
  , "                        ),"
  , "                        ("
  , "                            'n',"
  , "                            Node {"
  , "                                transitions: vec![],"
  , "                                output: Some(\"ん\"),"
  , "                            },"
  , "                        ),"
  , "                        ("
  , "                            'o',"
  , "                            Node {"
  , "                                transitions: vec![],"
  , "                                output: Some(\"ぉ\"),"
  , "                            },"
  , "                        ),"
  , "                        ("
  , "                            't',"
  , "                            Node {"
  , "                                transitions: vec!["
  , "                                    ("
  , "                                        's',"
  , "                                        Node {"
  , "                                            transitions: vec![("
  , "                                                'u',"
  , "                                                Node {"
  , "                                                    transitions: vec![],"
  , "                                                    output: Some(\"っ\"),"
  , "                                                },"
  , "                                            )],"
  , "                                            output: None,"
  , "                                        },"
  , "                                    ),"
  , "                                    ("
  , "                                        'u',"
  , "                                        Node {"
  , "                                            transitions: vec![],"
  , "                                            output: Some(\"っ\"),"
  , "                                        },"
  , "                                    ),"
  , "                                ],"
  , "                                output: None,"
  , "                            },"
  , "                        ),"
  , "                        ("
  , "                            'u',"
  , "                            Node {"
  , "                                transitions: vec![],"
  , "                                output: Some(\"ぅ\"),"
  , "                            },"
  , "                        ),"
  , "                        ("
  , "                            'w',"
  , "                            Node {"
  , "                                transitions: vec![("
  , "                                    'a',"
  , "                                    Node {"
  , "                                        transitions: vec![],"
  , "                                        output: Some(\"ゎ\"),"
  , "                                    },"
  , "                                )],"
  , "                                output: None,"
  , "                            },"
  , "                        ),"
  , "                        ("
  , "                            'y',"
  , "                            Node {"
  , "                                transitions: vec!["
  , "                                    ("
  , "                                        'a',"
  , "                                        Node {"
  , "                                            transitions: vec![],"
  , "                                            output: Some(\"ゃ\"),"
  , "                                        },"
  , "                                    ),"
  , "                                    ("
  , "                                        'e',"
  , "                                        Node {"
  , "                                            transitions: vec![],"
  , "                                            output: Some(\"ぇ\"),"
  , "                                        },"
  , "                                    ),"
  , "                                    ("
  , "                                        'i',"
  , "                                        Node {"
  , "                                            transitions: vec![],"
  , "                                            output: Some(\"ぃ\"),"
  , "                                        },"
  , "                                    ),"
  , "                                    ("
  , "                                        'o',"
  , "                                        Node {"
  , "                                            transitions: vec![],"
  , "                                            output: Some(\"ょ\"),"
  , "                                        },"
  , "                                    ),"
  , "                                    ("
  , "                                        'u',"
  , "                                        Node {"
  , "                                            transitions: vec![],"
  , "                                            output: Some(\"ゅ\"),"
  , "                                        },"
  , "                                    ),"
  , "                                ],"
  , "                                output: None,"
  , "                            },"
  , "                        ),"
  , "                    ],"
  , "                    output: None,"
  , "                },"
  , "            ),"]

/-- src/to_kana_node_tree.rs:4504-4589 -/
def kanaText035 : List String :=
  ["            ("
  , "                'y',"
  , "                Node {"
  , "                    transitions: vec!["
  , "                        ("
  , "                            'a',"
  , "                            Node {"
  , "                                transitions: vec![],"
  , "                                output: Some(\"や\"),"
  , "                            },"
  , "                        ),"
  , "                        ("
  , "                            'e',"
  , "                            Node {"
  , "                                transitions: vec![],"
  , "                                output: Some(\"いぇ\"),"
  , "                            },"
  , "                        ),"
  , "                        ("
  , "                            'i',"
  , "                            Node {"
  , "                                transitions: vec![],"
  , "                                output: Some(\"い\"),"
  , "                            },"
  , "                        ),"
  , "                        ("
  , "                            'o',"
  , "                            Node {"
  , "                                transitions: vec![],"
  , "                                output: Some(\"よ\"),"
  , "                            },"
  , "                        ),"
  , "                        ("
  , "                            'u',"
  , "                            Node {"
  , "                                transitions: vec![],"
  , "                                output: Some(\"ゆ\"),"
  , "                            },"
  , "                        ),"
  , "                        ("
  , "                            'y',"
  , "                            Node {"
  , "                                transitions: vec!["
  , "                                    ("
  , "                                        'a',"
  , "                                        Node {"
  , "                                            transitions: vec![],"
  , "                                            output: Some(\"っや\"),"
  , "                                        },"
  , "                                    ),"
  , "                                    ("
  , "                                        'e',"
  , "                                        Node {"
  , "                                            transitions: vec![],"
  , "                                            output: Some(\"っいぇ\"),"
  , "                                        },"
  , "                                    ),"
  , "                                    ("
  , "                                        'i',"
  , "                                        Node {"
  , "                                            transitions: vec![],"
  , "                                            output: Some(\"っい\"),"
  , "                                        },"
  , "                                    ),"
  , "                                    ("
  , "                                        'o',"
  , "                                        Node {"
  , "                                            transitions: vec![],"
  , "                                            output: Some(\"っよ\"),"
  , "                                        },"
  , "                                    ),"
  , "                                    ("
  , "                                        'u',"
  , "                                        Node {"
  , "                                            transitions: vec![],"
  , "                                            output: Some(\"っゆ\"),"
  , "                                        },"
  , "                                    ),"
  , "                                ],"
  , "                                output: None,"
  , "                            },"
  , "                        ),"
  , "                    ],"
  , "                    output: None,"
  , "                },"
  , "            ),"]

/-- src/to_kana_node_tree.rs:4590-4761 -/
def kanaText036 : List String :=
  ["            ("
  , "                'z',"
  , "                Node {"
  , "                    transitions: vec!["
  , "                        ("
  , "                            'a',"
  , "                            Node {"
  , "                                transitions: vec![],"
  , "                                output: Some(\"ざ\"),"
  , "                            },"
  , "                        ),"
  , "                        ("
  , "                            'e',"
  , "                            Node {"
  , "                                transitions: vec![],"
  , "                                output: Some(\"ぜ\"),"
  , "                            },"
  , "                        ),"
  , "                        ("
  , "                            'i',"
  , "                            Node {"
  , "                                transitions: vec![],"
  , "                                output: Some(\"じ\"),"
  , "                            },"
  , "                        ),"
  , "                        ("
  , "                            'o',"
  , "                            Node {"
  , "                                transitions: vec![],"
  , "                                output: Some(\"ぞ\"),"
  , "                            },"
  , "                        ),"
  , "                        ("
  , "                            'u',"
  , "                            Node {"
  , "                                transitions: vec![],"
  , "                                output: Some(\"ず\"),"
  , "                            },"
  , "                        ),"
  , "                        ("
  , "                            'y',"
  , "                            Node {"
  , "                                transitions: vec!["
  , "                                    ("
  , "                                        'a',"
  , "                                        Node {"
  , "                                            transitions: vec![],"
  , "                                            output: Some(\"じゃ\"),"
  , "                                        },"
  , "                                    ),"
  , "                                    ("
  , "                                        'e',"
  , "                                        Node {"
  , "                                            transitions: vec![],"
  , "                                            output: Some(\"じぇ\"),"
  , "                                        },"
  , "                                    ),"
  , "                                    ("
  , "                                        'i',"
  , "                                        Node {"
  , "                                            transitions: vec![],"
  , "                                            output: Some(\"じぃ\"),"
  , "                                        },"
  , "                                    ),"
  , "                                    ("
  , "                                        'o',"
  , "                                        Node {"
  , "                                            transitions: vec![],"
  , "                                            output: Some(\"じょ\"),"
  , "                                        },"
  , "                                    ),"
  , "                                    ("
  , "                                        'u',"
  , "                                        Node {"
  , "                                            transitions: vec![],"
  , "                                            output: Some(\"じゅ\"),"
  , "                                        },"
  , "                                    ),"
  , "                                ],"
  , "                                output: None,"
  , "                            },"
  , "                        ),"
  , "                        ("
  , "                            'z',"
  , "                            Node {"
  , "                                transitions: vec!["
  , "                                    ("
  , "                                        'a',"
  , "                                        Node {"
  , "                                            transitions: vec![],"
  , "                                            output: Some(\"っざ\"),"
  , "                                        },"
  , "                                    ),"
  , "                                    ("
  , "                                        'e',"
  , "                                        Node {"
  , "                                            transitions: vec![],"
  , "                                            output: Some(\"っぜ\"),"
  , "                                        },"
  , "                                    ),"
  , "                                    ("
  , "                                        'i',"
  , "                                        Node {"
  , "                                            transitions: vec![],"
  , "                                            output: Some(\"っじ\"),"
  , "                                        },"
  , "                                    ),"
  , "                                    ("
  , "                                        'o',"
  , "                                        Node {"
  , "                                            transitions: vec![],"
  , "                                            output: Some(\"っぞ\"),"
  , "                                        },"
  , "                                    ),"
  , "                                    ("
  , "                                        'u',"
  , "                                        Node {"
  , "                                            transitions: vec![],"
  , "                                            output: Some(\"っず\"),"
  , "                                        },"
  , "                                    ),"
  , "                                    ("
  , "                                        'y',"
  , "                                        Node {"
  , "                                            transitions: vec!["
  , "                                                ("
  , "                                                    'a',"
  , "                                                    Node {"
  , "                                                        transitions: vec![],"
  , "                                                        output: Some(\"っじゃ\"),"
  , "                                                    },"
  , "                                                ),"
  , "                                                ("
  , "                                                    'e',"
  , "                                                    Node {"
  , "                                                        transitions: vec![],"
  , "                                                        output: Some(\"っじぇ\"),"
  , "                                                    },"
  , "                                                ),"
  , "                                                ("
  , "                                                    'i',"
  , "                                                    Node {"
  , "                                                        transitions: vec![],"
  , "                                                        output: Some(\"っじぃ\"),"
  , "                                                    },"
  , "                                                ),"
  , "                                                ("
  , "                                                    'o',"
  , "                                                    Node {"
  , "                                                        transitions: vec![],"
  , "                                                        output: Some(\"っじょ\"),"
  , "                                                    },"
  , "                                                ),"
  , "                                                ("
  , "                                                    'u',"
  , "                                                    Node {"
  , "                                                        transitions: vec![],"
  , "                                                        output: Some(\"っじゅ\"),"
  , "                                                    },"
  , "                                                ),"
  , "                                            ],"
  , "                                            output: None,"
  , "                                        },"
  , "                                    ),"
  , "                                ],"
  , "                                output: None,"
  , "                            },"
  , "                        ),"
  , "                    ],"
  , "                    output: None,"
  , "                },"
  , "            ),"]

/-- src/to_kana_node_tree.rs:4762-4768 -/
def kanaText037 : List String :=
  ["            ("
  , "                '{',"
  , "                Node {"
  , "                    transitions: vec![],"
  , "                    output: Some(\"｛\"),"
  , "                },"
  , "            ),"]

/-- src/to_kana_node_tree.rs:4769-4775 -/
def kanaText038 : List String :=
  ["            ("
  , "                '}',"
  , "                Node {"
  , "                    transitions: vec![],"
  , "                    output: Some(\"｝\"),"
  , "                },"
  , "            ),"]

/-- src/to_kana_node_tree.rs:4776-4782 -/
def kanaText039 : List String :=
  ["            ("
  , "                '~',"
  , "                Node {"
  , "                    transitions: vec![],"
  , "                    output: Some(\"〜\"),"
  , "                },"
  , "            ),"]

/-- src/to_kana_node_tree.rs:4783-4789 -/
def kanaText040 : List String :=
  ["            ("
  , "                '‘',"
  , "                Node {"
  , "                    transitions: vec![],"
  , "                    output: Some(\"「\"),"
  , "                },"
  , "            ),"]

/-- src/to_kana_node_tree.rs:4790-4796 -/
def kanaText041 : List String :=
  ["            ("
  , "                '’',"
  , "                Node {"
  , "                    transitions: vec![],"
  , "                    output: Some(\"」\"),"
  , "                },"
  , "            ),"]

/-- src/to_kana_node_tree.rs:4797-4803 -/
def kanaText042 : List String :=
  ["            ("
  , "                '“',"
  , "                Node {"
  , "                    transitions: vec![],"
  , "                    output: Some(\"『\"),"
  , "                },"
  , "            ),"]

/-- src/to_kana_node_tree.rs:4804-4810 -/
def kanaText043 : List String :=
  ["            ("
  , "                '”',"
  , "                Node {"
  , "                    transitions: vec![],"
  , "                    output: Some(\"』\"),"
  , "                },"
  , "            ),"]

/-- src/to_kana_node_tree.rs:4811 -/
def kanaTextLast : List String :=
  ["        ];"]

/-- src/to_kana_node_tree.rs:54-4810, one element per root transition -/
def kanaTexts : List (List String) :=
  [kanaText000, kanaText001, kanaText002, kanaText003, kanaText004, kanaText005,
   kanaText006, kanaText007, kanaText008, kanaText009, kanaText010, kanaText011,
   kanaText012, kanaText013, kanaText014, kanaText015, kanaText016, kanaText017,
   kanaText018, kanaText019, kanaText020, kanaText021, kanaText022, kanaText023,
   kanaText024, kanaText025, kanaText026, kanaText027, kanaText028, kanaText029,
   kanaText030, kanaText031, kanaText032, kanaText033, kanaText034, kanaText035,
   kanaText036, kanaText037, kanaText038, kanaText039, kanaText040, kanaText041,
   kanaText042, kanaText043]

end WanaKana
