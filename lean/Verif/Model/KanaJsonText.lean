import Verif.Model.Std
/-! # The text of upstream_conversions/src/bin/to_kana_tree.rs:16-1899, line by line
(copied by tools/gen_source_text.py) -/

namespace WanaKana

/-- upstream_conversions/src/bin/to_kana_tree.rs:16-265 -/
def kanaJson0 : List String :=
  ["    let val = json!({"
  , "      \"a\": {"
  , "        \"\": \"あ\""
  , "      },"
  , "      \"i\": {"
  , "        \"\": \"い\""
  , "      },"
  , "      \"u\": {"
  , "        \"\": \"う\""
  , "      },"
  , "      \"e\": {"
  , "        \"\": \"え\""
  , "      },"
  , "      \"o\": {"
  , "        \"\": \"お\""
  , "      },"
  , "      \"k\": {"
  , "        \"a\": {"
  , "          \"\": \"か\""
  , "        },"
  , "        \"i\": {"
  , "          \"\": \"き\""
  , "        },"
  , "        \"u\": {"
  , "          \"\": \"く\""
  , "        },"
  , "        \"e\": {"
  , "          \"\": \"け\""
  , "        },"
  , "        \"o\": {"
  , "          \"\": \"こ\""
  , "        },"
  , "        \"y\": {"
  , "          \"a\": {"
  , "            \"\": \"きゃ\""
  , "          },"
  , "          \"i\": {"
  , "            \"\": \"きぃ\""
  , "          },"
  , "          \"u\": {"
  , "            \"\": \"きゅ\""
  , "          },"
  , "          \"e\": {"
  , "            \"\": \"きぇ\""
  , "          },"
  , "          \"o\": {"
  , "            \"\": \"きょ\""
  , "          }"
  , "        },"
  , "        \"w\": {"
  , "          \"a\": {"
  , "            \"\": \"くぁ\""
  , "          }"
  , "        },"
  , "        \"k\": {"
  , "          \"a\": {"
  , "            \"\": \"っか\""
  , "          },"
  , "          \"i\": {"
  , "            \"\": \"っき\""
  , "          },"
  , "          \"u\": {"
  , "            \"\": \"っく\""
  , "          },"
  , "          \"e\": {"
  , "            \"\": \"っけ\""
  , "          },"
  , "          \"o\": {"
  , "            \"\": \"っこ\""
  , "          },"
  , "          \"y\": {"
  , "            \"a\": {"
  , "              \"\": \"っきゃ\""
  , "            },"
  , "            \"i\": {"
  , "              \"\": \"っきぃ\""
  , "            },"
  , "            \"u\": {"
  , "              \"\": \"っきゅ\""
  , "            },"
  , "            \"e\": {"
  , "              \"\": \"っきぇ\""
  , "            },"
  , "            \"o\": {"
  , "              \"\": \"っきょ\""
  , "            }"
  , "          },"
  , "          \"w\": {"
  , "            \"a\": {"
  , "              \"\": \"っくぁ\""
  , "            }"
  , "          }"
  , "        }"
  , "      },"
  , "      \"s\": {"
  , "        \"a\": {"
  , "          \"\": \"さ\""
  , "        },"
  , "        \"i\": {"
  , "          \"\": \"し\""
  , "        },"
  , "        \"u\": {"
  , "          \"\": \"す\""
  , "        },"
  , "        \"e\": {"
  , "          \"\": \"せ\""
  , "        },"
  , "        \"o\": {"
  , "          \"\": \"そ\""
  , "        },"
  , "        \"y\": {"
  , "          \"a\": {"
  , "            \"\": \"しゃ\""
  , "          },"
  , "          \"i\": {"
  , "            \"\": \"しぃ\""
  , "          },"
  , "          \"u\": {"
  , "            \"\": \"しゅ\""
  , "          },"
  , "          \"e\": {"
  , "            \"\": \"しぇ\""
  , "          },"
  , "          \"o\": {"
  , "            \"\": \"しょ\""
  , "          }"
  , "        },"
  , "        \"w\": {"
  , "          \"a\": {"
  , "            \"\": \"すぁ\""
  , "          },"
  , "          \"i\": {"
  , "            \"\": \"すぃ\""
  , "          },"
  , "          \"u\": {"
  , "            \"\": \"すぅ\""
  , "          },"
  , "          \"e\": {"
  , "            \"\": \"すぇ\""
  , "          },"
  , "          \"o\": {"
  , "            \"\": \"すぉ\""
  , "          }"
  , "        },"
  , "        \"h\": {"
  , "          \"a\": {"
  , "            \"\": \"しゃ\""
  , "          },"
  , "          \"i\": {"
  , "            \"\": \"し\""
  , "          },"
  , "          \"u\": {"
  , "            \"\": \"しゅ\""
  , "          },"
  , "          \"e\": {"
  , "            \"\": \"しぇ\""
  , "          },"
  , "          \"o\": {"
  , "            \"\": \"しょ\""
  , "          },"
  , "          \"y\": {"
  , "            \"a\": {"
  , "              \"\": \"しゃ\""
  , "            },"
  , "            \"i\": {"
  , "              \"\": \"しぃ\""
  , "            },"
  , "            \"u\": {"
  , "              \"\": \"しゅ\""
  , "            },"
  , "            \"e\": {"
  , "              \"\": \"しぇ\""
  , "            },"
  , "            \"o\": {"
  , "              \"\": \"しょ\""
  , "            }"
  , "          }"
  , "        },"
  , "        \"s\": {"
  , "          \"a\": {"
  , "            \"\": \"っさ\""
  , "          },"
  , "          \"i\": {"
  , "            \"\": \"っし\""
  , "          },"
  , "          \"u\": {"
  , "            \"\": \"っす\""
  , "          },"
  , "          \"e\": {"
  , "            \"\": \"っせ\""
  , "          },"
  , "          \"o\": {"
  , "            \"\": \"っそ\""
  , "          },"
  , "          \"y\": {"
  , "            \"a\": {"
  , "              \"\": \"っしゃ\""
  , "            },"
  , "            \"i\": {"
  , "              \"\": \"っしぃ\""
  , "            },"
  , "            \"u\": {"
  , "              \"\": \"っしゅ\""
  , "            },"
  , "            \"e\": {"
  , "              \"\": \"っしぇ\""
  , "            },"
  , "            \"o\": {"
  , "              \"\": \"っしょ\""
  , "            }"
  , "          },"
  , "          \"w\": {"
  , "            \"a\": {"
  , "              \"\": \"っすぁ\""
  , "            },"
  , "            \"i\": {"
  , "              \"\": \"っすぃ\""
  , "            },"
  , "            \"u\": {"
  , "              \"\": \"っすぅ\""
  , "            },"
  , "            \"e\": {"
  , "              \"\": \"っすぇ\""
  , "            },"
  , "            \"o\": {"
  , "              \"\": \"っすぉ\""
  , "            }"
  , "          },"
  , "          \"h\": {"
  , "            \"a\": {"
  , "              \"\": \"っしゃ\""
  , "            },"
  , "            \"i\": {"
  , "              \"\": \"っし\""
  , "            },"
  , "            \"u\": {"
  , "              \"\": \"っしゅ\""
  , "            },"
  , "            \"e\": {"
  , "              \"\": \"っしぇ\""
  , "            },"
  , "            \"o\": {"
  , "              \"\": \"っしょ\""
  , "            },"
  , "            \"y\": {"
  , "              \"a\": {"
  , "                \"\": \"っしゃ\""
  , "              },"
  , "              \"i\": {"
  , "                \"\": \"っしぃ\""]

/-- upstream_conversions/src/bin/to_kana_tree.rs:266-515 -/
def kanaJson1 : List String :=
  ["              },"
  , "              \"u\": {"
  , "                \"\": \"っしゅ\""
  , "              },"
  , "              \"e\": {"
  , "                \"\": \"っしぇ\""
  , "              },"
  , "              \"o\": {"
  , "                \"\": \"っしょ\""
  , "              }"
  , "            }"
  , "          }"
  , "        }"
  , "      },"
  , "      \"t\": {"
  , "        \"a\": {"
  , "          \"\": \"た\""
  , "        },"
  , "        \"i\": {"
  , "          \"\": \"ち\""
  , "        },"
  , "        \"u\": {"
  , "          \"\": \"つ\""
  , "        },"
  , "        \"e\": {"
  , "          \"\": \"て\""
  , "        },"
  , "        \"o\": {"
  , "          \"\": \"と\""
  , "        },"
  , "        \"y\": {"
  , "          \"a\": {"
  , "            \"\": \"ちゃ\""
  , "          },"
  , "          \"i\": {"
  , "            \"\": \"ちぃ\""
  , "          },"
  , "          \"u\": {"
  , "            \"\": \"ちゅ\""
  , "          },"
  , "          \"e\": {"
  , "            \"\": \"ちぇ\""
  , "          },"
  , "          \"o\": {"
  , "            \"\": \"ちょ\""
  , "          }"
  , "        },"
  , "        \"s\": {"
  , "          \"a\": {"
  , "            \"\": \"つぁ\""
  , "          },"
  , "          \"i\": {"
  , "            \"\": \"つぃ\""
  , "          },"
  , "          \"u\": {"
  , "            \"\": \"つ\""
  , "          },"
  , "          \"e\": {"
  , "            \"\": \"つぇ\""
  , "          },"
  , "          \"o\": {"
  , "            \"\": \"つぉ\""
  , "          }"
  , "        },"
  , "        \"h\": {"
  , "          \"a\": {"
  , "            \"\": \"てゃ\""
  , "          },"
  , "          \"i\": {"
  , "            \"\": \"てぃ\""
  , "          },"
  , "          \"u\": {"
  , "            \"\": \"てゅ\""
  , "          },"
  , "          \"e\": {"
  , "            \"\": \"てぇ\""
  , "          },"
  , "          \"o\": {"
  , "            \"\": \"てょ\""
  , "          }"
  , "        },"
  , "        \"w\": {"
  , "          \"a\": {"
  , "            \"\": \"とぁ\""
  , "          },"
  , "          \"i\": {"
  , "            \"\": \"とぃ\""
  , "          },"
  , "          \"u\": {"
  , "            \"\": \"とぅ\""
  , "          },"
  , "          \"e\": {"
  , "            \"\": \"とぇ\""
  , "          },"
  , "          \"o\": {"
  , "            \"\": \"とぉ\""
  , "          }"
  , "        },"
  , "        \"t\": {"
  , "          \"a\": {"
  , "            \"\": \"った\""
  , "          },"
  , "          \"i\": {"
  , "            \"\": \"っち\""
  , "          },"
  , "          \"u\": {"
  , "            \"\": \"っつ\""
  , "          },"
  , "          \"e\": {"
  , "            \"\": \"って\""
  , "          },"
  , "          \"o\": {"
  , "            \"\": \"っと\""
  , "          },"
  , "          \"y\": {"
  , "            \"a\": {"
  , "              \"\": \"っちゃ\""
  , "            },"
  , "            \"i\": {"
  , "              \"\": \"っちぃ\""
  , "            },"
  , "            \"u\": {"
  , "              \"\": \"っちゅ\""
  , "            },"
  , "            \"e\": {"
  , "              \"\": \"っちぇ\""
  , "            },"
  , "            \"o\": {"
  , "              \"\": \"っちょ\""
  , "            }"
  , "          },"
  , "          \"s\": {"
  , "            \"a\": {"
  , "              \"\": \"っつぁ\""
  , "            },"
  , "            \"i\": {"
  , "              \"\": \"っつぃ\""
  , "            },"
  , "            \"u\": {"
  , "              \"\": \"っつ\""
  , "            },"
  , "            \"e\": {"
  , "              \"\": \"っつぇ\""
  , "            },"
  , "            \"o\": {"
  , "              \"\": \"っつぉ\""
  , "            }"
  , "          },"
  , "          \"h\": {"
  , "            \"a\": {"
  , "              \"\": \"ってゃ\""
  , "            },"
  , "            \"i\": {"
  , "              \"\": \"ってぃ\""
  , "            },"
  , "            \"u\": {"
  , "              \"\": \"ってゅ\""
  , "            },"
  , "            \"e\": {"
  , "              \"\": \"ってぇ\""
  , "            },"
  , "            \"o\": {"
  , "              \"\": \"ってょ\""
  , "            }"
  , "          },"
  , "          \"w\": {"
  , "            \"a\": {"
  , "              \"\": \"っとぁ\""
  , "            },"
  , "            \"i\": {"
  , "              \"\": \"っとぃ\""
  , "            },"
  , "            \"u\": {"
  , "              \"\": \"っとぅ\""
  , "            },"
  , "            \"e\": {"
  , "              \"\": \"っとぇ\""
  , "            },"
  , "            \"o\": {"
  , "              \"\": \"っとぉ\""
  , "            }"
  , "          }"
  , "        }"
  , "      },"
  , "      \"n\": {"
  , "        \"a\": {"
  , "          \"\": \"な\""
  , "        },"
  , "        \"i\": {"
  , "          \"\": \"に\""
  , "        },"
  , "        \"u\": {"
  , "          \"\": \"ぬ\""
  , "        },"
  , "        \"e\": {"
  , "          \"\": \"ね\""
  , "        },"
  , "        \"o\": {"
  , "          \"\": \"の\""
  , "        },"
  , "        \"y\": {"
  , "          \"a\": {"
  , "            \"\": \"にゃ\""
  , "          },"
  , "          \"i\": {"
  , "            \"\": \"にぃ\""
  , "          },"
  , "          \"u\": {"
  , "            \"\": \"にゅ\""
  , "          },"
  , "          \"e\": {"
  , "            \"\": \"にぇ\""
  , "          },"
  , "          \"o\": {"
  , "            \"\": \"にょ\""
  , "          }"
  , "        },"
  , "        \"\": \"ん\","
  , "        \"'\": {"
  , "          \"\": \"ん\""
  , "        }"
  , "      },"
  , "      \"h\": {"
  , "        \"a\": {"
  , "          \"\": \"は\""
  , "        },"
  , "        \"i\": {"
  , "          \"\": \"ひ\""
  , "        },"
  , "        \"u\": {"
  , "          \"\": \"ふ\""
  , "        },"
  , "        \"e\": {"
  , "          \"\": \"へ\""
  , "        },"
  , "        \"o\": {"
  , "          \"\": \"ほ\""
  , "        },"
  , "        \"y\": {"
  , "          \"a\": {"
  , "            \"\": \"ひゃ\""
  , "          },"
  , "          \"i\": {"
  , "            \"\": \"ひぃ\""
  , "          },"
  , "          \"u\": {"
  , "            \"\": \"ひゅ\""
  , "          },"
  , "          \"e\": {"
  , "            \"\": \"ひぇ\""]

/-- upstream_conversions/src/bin/to_kana_tree.rs:516-765 -/
def kanaJson2 : List String :=
  ["          },"
  , "          \"o\": {"
  , "            \"\": \"ひょ\""
  , "          }"
  , "        },"
  , "        \"h\": {"
  , "          \"a\": {"
  , "            \"\": \"っは\""
  , "          },"
  , "          \"i\": {"
  , "            \"\": \"っひ\""
  , "          },"
  , "          \"u\": {"
  , "            \"\": \"っふ\""
  , "          },"
  , "          \"e\": {"
  , "            \"\": \"っへ\""
  , "          },"
  , "          \"o\": {"
  , "            \"\": \"っほ\""
  , "          },"
  , "          \"y\": {"
  , "            \"a\": {"
  , "              \"\": \"っひゃ\""
  , "            },"
  , "            \"i\": {"
  , "              \"\": \"っひぃ\""
  , "            },"
  , "            \"u\": {"
  , "              \"\": \"っひゅ\""
  , "            },"
  , "            \"e\": {"
  , "              \"\": \"っひぇ\""
  , "            },"
  , "            \"o\": {"
  , "              \"\": \"っひょ\""
  , "            }"
  , "          }"
  , "        }"
  , "      },"
  , "      \"m\": {"
  , "        \"a\": {"
  , "          \"\": \"ま\""
  , "        },"
  , "        \"i\": {"
  , "          \"\": \"み\""
  , "        },"
  , "        \"u\": {"
  , "          \"\": \"む\""
  , "        },"
  , "        \"e\": {"
  , "          \"\": \"め\""
  , "        },"
  , "        \"o\": {"
  , "          \"\": \"も\""
  , "        },"
  , "        \"y\": {"
  , "          \"a\": {"
  , "            \"\": \"みゃ\""
  , "          },"
  , "          \"i\": {"
  , "            \"\": \"みぃ\""
  , "          },"
  , "          \"u\": {"
  , "            \"\": \"みゅ\""
  , "          },"
  , "          \"e\": {"
  , "            \"\": \"みぇ\""
  , "          },"
  , "          \"o\": {"
  , "            \"\": \"みょ\""
  , "          }"
  , "        },"
  , "        \"m\": {"
  , "          \"a\": {"
  , "            \"\": \"っま\""
  , "          },"
  , "          \"i\": {"
  , "            \"\": \"っみ\""
  , "          },"
  , "          \"u\": {"
  , "            \"\": \"っむ\""
  , "          },"
  , "          \"e\": {"
  , "            \"\": \"っめ\""
  , "          },"
  , "          \"o\": {"
  , "            \"\": \"っも\""
  , "          },"
  , "          \"y\": {"
  , "            \"a\": {"
  , "              \"\": \"っみゃ\""
  , "            },"
  , "            \"i\": {"
  , "              \"\": \"っみぃ\""
  , "            },"
  , "            \"u\": {"
  , "              \"\": \"っみゅ\""
  , "            },"
  , "            \"e\": {"
  , "              \"\": \"っみぇ\""
  , "            },"
  , "            \"o\": {"
  , "              \"\": \"っみょ\""
  , "            }"
  , "          }"
  , "        }"
  , "      },"
  , "      \"y\": {"
  , "        \"a\": {"
  , "          \"\": \"や\""
  , "        },"
  , "        \"u\": {"
  , "          \"\": \"ゆ\""
  , "        },"
  , "        \"o\": {"
  , "          \"\": \"よ\""
  , "        },"
  , "        \"i\": {"
  , "          \"\": \"い\""
  , "        },"
  , "        \"e\": {"
  , "          \"\": \"いぇ\""
  , "        },"
  , "        \"y\": {"
  , "          \"a\": {"
  , "            \"\": \"っや\""
  , "          },"
  , "          \"u\": {"
  , "            \"\": \"っゆ\""
  , "          },"
  , "          \"o\": {"
  , "            \"\": \"っよ\""
  , "          },"
  , "          \"i\": {"
  , "            \"\": \"っい\""
  , "          },"
  , "          \"e\": {"
  , "            \"\": \"っいぇ\""
  , "          }"
  , "        }"
  , "      },"
  , "      \"r\": {"
  , "        \"a\": {"
  , "          \"\": \"ら\""
  , "        },"
  , "        \"i\": {"
  , "          \"\": \"り\""
  , "        },"
  , "        \"u\": {"
  , "          \"\": \"る\""
  , "        },"
  , "        \"e\": {"
  , "          \"\": \"れ\""
  , "        },"
  , "        \"o\": {"
  , "          \"\": \"ろ\""
  , "        },"
  , "        \"y\": {"
  , "          \"a\": {"
  , "            \"\": \"りゃ\""
  , "          },"
  , "          \"i\": {"
  , "            \"\": \"りぃ\""
  , "          },"
  , "          \"u\": {"
  , "            \"\": \"りゅ\""
  , "          },"
  , "          \"e\": {"
  , "            \"\": \"りぇ\""
  , "          },"
  , "          \"o\": {"
  , "            \"\": \"りょ\""
  , "          }"
  , "        },"
  , "        \"r\": {"
  , "          \"a\": {"
  , "            \"\": \"っら\""
  , "          },"
  , "          \"i\": {"
  , "            \"\": \"っり\""
  , "          },"
  , "          \"u\": {"
  , "            \"\": \"っる\""
  , "          },"
  , "          \"e\": {"
  , "            \"\": \"っれ\""
  , "          },"
  , "          \"o\": {"
  , "            \"\": \"っろ\""
  , "          },"
  , "          \"y\": {"
  , "            \"a\": {"
  , "              \"\": \"っりゃ\""
  , "            },"
  , "            \"i\": {"
  , "              \"\": \"っりぃ\""
  , "            },"
  , "            \"u\": {"
  , "              \"\": \"っりゅ\""
  , "            },"
  , "            \"e\": {"
  , "              \"\": \"っりぇ\""
  , "            },"
  , "            \"o\": {"
  , "              \"\": \"っりょ\""
  , "            }"
  , "          }"
  , "        }"
  , "      },"
  , "      \"w\": {"
  , "        \"a\": {"
  , "          \"\": \"わ\""
  , "        },"
  , "        \"i\": {"
  , "          \"\": \"うぃ\""
  , "        },"
  , "        \"e\": {"
  , "          \"\": \"うぇ\""
  , "        },"
  , "        \"o\": {"
  , "          \"\": \"を\""
  , "        },"
  , "        \"h\": {"
  , "          \"a\": {"
  , "            \"\": \"うぁ\""
  , "          },"
  , "          \"i\": {"
  , "            \"\": \"うぃ\""
  , "          },"
  , "          \"u\": {"
  , "            \"\": \"う\""
  , "          },"
  , "          \"e\": {"
  , "            \"\": \"うぇ\""
  , "          },"
  , "          \"o\": {"
  , "            \"\": \"うぉ\""
  , "          }"
  , "        },"
  , "        \"u\": {"
  , "          \"\": \"う\""
  , "        },"
  , "        \"w\": {"
  , "          \"a\": {"
  , "            \"\": \"っわ\""
  , "          },"
  , "          \"i\": {"
  , "            \"\": \"っうぃ\""
  , "          },"]

/-- upstream_conversions/src/bin/to_kana_tree.rs:766-1015 -/
def kanaJson3 : List String :=
  ["          \"e\": {"
  , "            \"\": \"っうぇ\""
  , "          },"
  , "          \"o\": {"
  , "            \"\": \"っを\""
  , "          },"
  , "          \"h\": {"
  , "            \"a\": {"
  , "              \"\": \"っうぁ\""
  , "            },"
  , "            \"i\": {"
  , "              \"\": \"っうぃ\""
  , "            },"
  , "            \"u\": {"
  , "              \"\": \"っう\""
  , "            },"
  , "            \"e\": {"
  , "              \"\": \"っうぇ\""
  , "            },"
  , "            \"o\": {"
  , "              \"\": \"っうぉ\""
  , "            }"
  , "          },"
  , "          \"u\": {"
  , "            \"\": \"っう\""
  , "          }"
  , "        }"
  , "      },"
  , "      \"g\": {"
  , "        \"a\": {"
  , "          \"\": \"が\""
  , "        },"
  , "        \"i\": {"
  , "          \"\": \"ぎ\""
  , "        },"
  , "        \"u\": {"
  , "          \"\": \"ぐ\""
  , "        },"
  , "        \"e\": {"
  , "          \"\": \"げ\""
  , "        },"
  , "        \"o\": {"
  , "          \"\": \"ご\""
  , "        },"
  , "        \"y\": {"
  , "          \"a\": {"
  , "            \"\": \"ぎゃ\""
  , "          },"
  , "          \"i\": {"
  , "            \"\": \"ぎぃ\""
  , "          },"
  , "          \"u\": {"
  , "            \"\": \"ぎゅ\""
  , "          },"
  , "          \"e\": {"
  , "            \"\": \"ぎぇ\""
  , "          },"
  , "          \"o\": {"
  , "            \"\": \"ぎょ\""
  , "          }"
  , "        },"
  , "        \"w\": {"
  , "          \"a\": {"
  , "            \"\": \"ぐぁ\""
  , "          },"
  , "          \"i\": {"
  , "            \"\": \"ぐぃ\""
  , "          },"
  , "          \"u\": {"
  , "            \"\": \"ぐぅ\""
  , "          },"
  , "          \"e\": {"
  , "            \"\": \"ぐぇ\""
  , "          },"
  , "          \"o\": {"
  , "            \"\": \"ぐぉ\""
  , "          }"
  , "        },"
  , "        \"g\": {"
  , "          \"a\": {"
  , "            \"\": \"っが\""
  , "          },"
  , "          \"i\": {"
  , "            \"\": \"っぎ\""
  , "          },"
  , "          \"u\": {"
  , "            \"\": \"っぐ\""
  , "          },"
  , "          \"e\": {"
  , "            \"\": \"っげ\""
  , "          },"
  , "          \"o\": {"
  , "            \"\": \"っご\""
  , "          },"
  , "          \"y\": {"
  , "            \"a\": {"
  , "              \"\": \"っぎゃ\""
  , "            },"
  , "            \"i\": {"
  , "              \"\": \"っぎぃ\""
  , "            },"
  , "            \"u\": {"
  , "              \"\": \"っぎゅ\""
  , "            },"
  , "            \"e\": {"
  , "              \"\": \"っぎぇ\""
  , "            },"
  , "            \"o\": {"
  , "              \"\": \"っぎょ\""
  , "            }"
  , "          },"
  , "          \"w\": {"
  , "            \"a\": {"
  , "              \"\": \"っぐぁ\""
  , "            },"
  , "            \"i\": {"
  , "              \"\": \"っぐぃ\""
  , "            },"
  , "            \"u\": {"
  , "              \"\": \"っぐぅ\""
  , "            },"
  , "            \"e\": {"
  , "              \"\": \"っぐぇ\""
  , "            },"
  , "            \"o\": {"
  , "              \"\": \"っぐぉ\""
  , "            }"
  , "          }"
  , "        }"
  , "      },"
  , "      \"z\": {"
  , "        \"a\": {"
  , "          \"\": \"ざ\""
  , "        },"
  , "        \"i\": {"
  , "          \"\": \"じ\""
  , "        },"
  , "        \"u\": {"
  , "          \"\": \"ず\""
  , "        },"
  , "        \"e\": {"
  , "          \"\": \"ぜ\""
  , "        },"
  , "        \"o\": {"
  , "          \"\": \"ぞ\""
  , "        },"
  , "        \"y\": {"
  , "          \"a\": {"
  , "            \"\": \"じゃ\""
  , "          },"
  , "          \"i\": {"
  , "            \"\": \"じぃ\""
  , "          },"
  , "          \"u\": {"
  , "            \"\": \"じゅ\""
  , "          },"
  , "          \"e\": {"
  , "            \"\": \"じぇ\""
  , "          },"
  , "          \"o\": {"
  , "            \"\": \"じょ\""
  , "          }"
  , "        },"
  , "        \"z\": {"
  , "          \"a\": {"
  , "            \"\": \"っざ\""
  , "          },"
  , "          \"i\": {"
  , "            \"\": \"っじ\""
  , "          },"
  , "          \"u\": {"
  , "            \"\": \"っず\""
  , "          },"
  , "          \"e\": {"
  , "            \"\": \"っぜ\""
  , "          },"
  , "          \"o\": {"
  , "            \"\": \"っぞ\""
  , "          },"
  , "          \"y\": {"
  , "            \"a\": {"
  , "              \"\": \"っじゃ\""
  , "            },"
  , "            \"i\": {"
  , "              \"\": \"っじぃ\""
  , "            },"
  , "            \"u\": {"
  , "              \"\": \"っじゅ\""
  , "            },"
  , "            \"e\": {"
  , "              \"\": \"っじぇ\""
  , "            },"
  , "            \"o\": {"
  , "              \"\": \"っじょ\""
  , "            }"
  , "          }"
  , "        }"
  , "      },"
  , "      \"d\": {"
  , "        \"a\": {"
  , "          \"\": \"だ\""
  , "        },"
  , "        \"i\": {"
  , "          \"\": \"ぢ\""
  , "        },"
  , "        \"u\": {"
  , "          \"\": \"づ\""
  , "        },"
  , "        \"e\": {"
  , "          \"\": \"で\""
  , "        },"
  , "        \"o\": {"
  , "          \"\": \"ど\""
  , "        },"
  , "        \"y\": {"
  , "          \"a\": {"
  , "            \"\": \"ぢゃ\""
  , "          },"
  , "          \"i\": {"
  , "            \"\": \"ぢぃ\""
  , "          },"
  , "          \"u\": {"
  , "            \"\": \"ぢゅ\""
  , "          },"
  , "          \"e\": {"
  , "            \"\": \"ぢぇ\""
  , "          },"
  , "          \"o\": {"
  , "            \"\": \"ぢょ\""
  , "          }"
  , "        },"
  , "        \"h\": {"
  , "          \"a\": {"
  , "            \"\": \"でゃ\""
  , "          },"
  , "          \"i\": {"
  , "            \"\": \"でぃ\""
  , "          },"
  , "          \"u\": {"
  , "            \"\": \"でゅ\""
  , "          },"
  , "          \"e\": {"
  , "            \"\": \"でぇ\""
  , "          },"
  , "          \"o\": {"
  , "            \"\": \"でょ\""
  , "          }"
  , "        },"
  , "        \"w\": {"
  , "          \"a\": {"]

/-- upstream_conversions/src/bin/to_kana_tree.rs:1016-1265 -/
def kanaJson4 : List String :=
  ["            \"\": \"どぁ\""
  , "          },"
  , "          \"i\": {"
  , "            \"\": \"どぃ\""
  , "          },"
  , "          \"u\": {"
  , "            \"\": \"どぅ\""
  , "          },"
  , "          \"e\": {"
  , "            \"\": \"どぇ\""
  , "          },"
  , "          \"o\": {"
  , "            \"\": \"どぉ\""
  , "          }"
  , "        },"
  , "        \"d\": {"
  , "          \"a\": {"
  , "            \"\": \"っだ\""
  , "          },"
  , "          \"i\": {"
  , "            \"\": \"っぢ\""
  , "          },"
  , "          \"u\": {"
  , "            \"\": \"っづ\""
  , "          },"
  , "          \"e\": {"
  , "            \"\": \"っで\""
  , "          },"
  , "          \"o\": {"
  , "            \"\": \"っど\""
  , "          },"
  , "          \"y\": {"
  , "            \"a\": {"
  , "              \"\": \"っぢゃ\""
  , "            },"
  , "            \"i\": {"
  , "              \"\": \"っぢぃ\""
  , "            },"
  , "            \"u\": {"
  , "              \"\": \"っぢゅ\""
  , "            },"
  , "            \"e\": {"
  , "              \"\": \"っぢぇ\""
  , "            },"
  , "            \"o\": {"
  , "              \"\": \"っぢょ\""
  , "            }"
  , "          },"
  , "          \"h\": {"
  , "            \"a\": {"
  , "              \"\": \"っでゃ\""
  , "            },"
  , "            \"i\": {"
  , "              \"\": \"っでぃ\""
  , "            },"
  , "            \"u\": {"
  , "              \"\": \"っでゅ\""
  , "            },"
  , "            \"e\": {"
  , "              \"\": \"っでぇ\""
  , "            },"
  , "            \"o\": {"
  , "              \"\": \"っでょ\""
  , "            }"
  , "          },"
  , "          \"w\": {"
  , "            \"a\": {"
  , "              \"\": \"っどぁ\""
  , "            },"
  , "            \"i\": {"
  , "              \"\": \"っどぃ\""
  , "            },"
  , "            \"u\": {"
  , "              \"\": \"っどぅ\""
  , "            },"
  , "            \"e\": {"
  , "              \"\": \"っどぇ\""
  , "            },"
  , "            \"o\": {"
  , "              \"\": \"っどぉ\""
  , "            }"
  , "          }"
  , "        }"
  , "      },"
  , "      \"b\": {"
  , "        \"a\": {"
  , "          \"\": \"ば\""
  , "        },"
  , "        \"i\": {"
  , "          \"\": \"び\""
  , "        },"
  , "        \"u\": {"
  , "          \"\": \"ぶ\""
  , "        },"
  , "        \"e\": {"
  , "          \"\": \"べ\""
  , "        },"
  , "        \"o\": {"
  , "          \"\": \"ぼ\""
  , "        },"
  , "        \"y\": {"
  , "          \"a\": {"
  , "            \"\": \"びゃ\""
  , "          },"
  , "          \"i\": {"
  , "            \"\": \"びぃ\""
  , "          },"
  , "          \"u\": {"
  , "            \"\": \"びゅ\""
  , "          },"
  , "          \"e\": {"
  , "            \"\": \"びぇ\""
  , "          },"
  , "          \"o\": {"
  , "            \"\": \"びょ\""
  , "          }"
  , "        },"
  , "        \"b\": {"
  , "          \"a\": {"
  , "            \"\": \"っば\""
  , "          },"
  , "          \"i\": {"
  , "            \"\": \"っび\""
  , "          },"
  , "          \"u\": {"
  , "            \"\": \"っぶ\""
  , "          },"
  , "          \"e\": {"
  , "            \"\": \"っべ\""
  , "          },"
  , "          \"o\": {"
  , "            \"\": \"っぼ\""
  , "          },"
  , "          \"y\": {"
  , "            \"a\": {"
  , "              \"\": \"っびゃ\""
  , "            },"
  , "            \"i\": {"
  , "              \"\": \"っびぃ\""
  , "            },"
  , "            \"u\": {"
  , "              \"\": \"っびゅ\""
  , "            },"
  , "            \"e\": {"
  , "              \"\": \"っびぇ\""
  , "            },"
  , "            \"o\": {"
  , "              \"\": \"っびょ\""
  , "            }"
  , "          }"
  , "        }"
  , "      },"
  , "      \"p\": {"
  , "        \"a\": {"
  , "          \"\": \"ぱ\""
  , "        },"
  , "        \"i\": {"
  , "          \"\": \"ぴ\""
  , "        },"
  , "        \"u\": {"
  , "          \"\": \"ぷ\""
  , "        },"
  , "        \"e\": {"
  , "          \"\": \"ぺ\""
  , "        },"
  , "        \"o\": {"
  , "          \"\": \"ぽ\""
  , "        },"
  , "        \"y\": {"
  , "          \"a\": {"
  , "            \"\": \"ぴゃ\""
  , "          },"
  , "          \"i\": {"
  , "            \"\": \"ぴぃ\""
  , "          },"
  , "          \"u\": {"
  , "            \"\": \"ぴゅ\""
  , "          },"
  , "          \"e\": {"
  , "            \"\": \"ぴぇ\""
  , "          },"
  , "          \"o\": {"
  , "            \"\": \"ぴょ\""
  , "          }"
  , "        },"
  , "        \"p\": {"
  , "          \"a\": {"
  , "            \"\": \"っぱ\""
  , "          },"
  , "          \"i\": {"
  , "            \"\": \"っぴ\""
  , "          },"
  , "          \"u\": {"
  , "            \"\": \"っぷ\""
  , "          },"
  , "          \"e\": {"
  , "            \"\": \"っぺ\""
  , "          },"
  , "          \"o\": {"
  , "            \"\": \"っぽ\""
  , "          },"
  , "          \"y\": {"
  , "            \"a\": {"
  , "              \"\": \"っぴゃ\""
  , "            },"
  , "            \"i\": {"
  , "              \"\": \"っぴぃ\""
  , "            },"
  , "            \"u\": {"
  , "              \"\": \"っぴゅ\""
  , "            },"
  , "            \"e\": {"
  , "              \"\": \"っぴぇ\""
  , "            },"
  , "            \"o\": {"
  , "              \"\": \"っぴょ\""
  , "            }"
  , "          }"
  , "        }"
  , "      },"
  , "      \"v\": {"
  , "        \"a\": {"
  , "          \"\": \"ゔぁ\""
  , "        },"
  , "        \"i\": {"
  , "          \"\": \"ゔぃ\""
  , "        },"
  , "        \"u\": {"
  , "          \"\": \"ゔ\""
  , "        },"
  , "        \"e\": {"
  , "          \"\": \"ゔぇ\""
  , "        },"
  , "        \"o\": {"
  , "          \"\": \"ゔぉ\""
  , "        },"
  , "        \"y\": {"
  , "          \"a\": {"
  , "            \"\": \"ゔゃ\""
  , "          },"
  , "          \"i\": {"
  , "            \"\": \"ゔぃ\""
  , "          },"
  , "          \"u\": {"
  , "            \"\": \"ゔゅ\""
  , "          },"
  , "          \"e\": {"
  , "            \"\": \"ゔぇ\""
  , "          },"
  , "          \"o\": {"]

/-- upstream_conversions/src/bin/to_kana_tree.rs:1266-1515 -/
def kanaJson5 : List String :=
  ["            \"\": \"ゔょ\""
  , "          }"
  , "        },"
  , "        \"v\": {"
  , "          \"a\": {"
  , "            \"\": \"っゔぁ\""
  , "          },"
  , "          \"i\": {"
  , "            \"\": \"っゔぃ\""
  , "          },"
  , "          \"u\": {"
  , "            \"\": \"っゔ\""
  , "          },"
  , "          \"e\": {"
  , "            \"\": \"っゔぇ\""
  , "          },"
  , "          \"o\": {"
  , "            \"\": \"っゔぉ\""
  , "          },"
  , "          \"y\": {"
  , "            \"a\": {"
  , "              \"\": \"っゔゃ\""
  , "            },"
  , "            \"i\": {"
  , "              \"\": \"っゔぃ\""
  , "            },"
  , "            \"u\": {"
  , "              \"\": \"っゔゅ\""
  , "            },"
  , "            \"e\": {"
  , "              \"\": \"っゔぇ\""
  , "            },"
  , "            \"o\": {"
  , "              \"\": \"っゔょ\""
  , "            }"
  , "          }"
  , "        }"
  , "      },"
  , "      \"q\": {"
  , "        \"y\": {"
  , "          \"a\": {"
  , "            \"\": \"くゃ\""
  , "          },"
  , "          \"i\": {"
  , "            \"\": \"くぃ\""
  , "          },"
  , "          \"u\": {"
  , "            \"\": \"くゅ\""
  , "          },"
  , "          \"e\": {"
  , "            \"\": \"くぇ\""
  , "          },"
  , "          \"o\": {"
  , "            \"\": \"くょ\""
  , "          }"
  , "        },"
  , "        \"w\": {"
  , "          \"a\": {"
  , "            \"\": \"くぁ\""
  , "          },"
  , "          \"i\": {"
  , "            \"\": \"くぃ\""
  , "          },"
  , "          \"u\": {"
  , "            \"\": \"くぅ\""
  , "          },"
  , "          \"e\": {"
  , "            \"\": \"くぇ\""
  , "          },"
  , "          \"o\": {"
  , "            \"\": \"くぉ\""
  , "          }"
  , "        },"
  , "        \"a\": {"
  , "          \"\": \"くぁ\""
  , "        },"
  , "        \"i\": {"
  , "          \"\": \"くぃ\""
  , "        },"
  , "        \"u\": {"
  , "          \"\": \"くぅ\""
  , "        },"
  , "        \"e\": {"
  , "          \"\": \"くぇ\""
  , "        },"
  , "        \"o\": {"
  , "          \"\": \"くぉ\""
  , "        },"
  , "        \"q\": {"
  , "          \"y\": {"
  , "            \"a\": {"
  , "              \"\": \"っくゃ\""
  , "            },"
  , "            \"i\": {"
  , "              \"\": \"っくぃ\""
  , "            },"
  , "            \"u\": {"
  , "              \"\": \"っくゅ\""
  , "            },"
  , "            \"e\": {"
  , "              \"\": \"っくぇ\""
  , "            },"
  , "            \"o\": {"
  , "              \"\": \"っくょ\""
  , "            }"
  , "          },"
  , "          \"w\": {"
  , "            \"a\": {"
  , "              \"\": \"っくぁ\""
  , "            },"
  , "            \"i\": {"
  , "              \"\": \"っくぃ\""
  , "            },"
  , "            \"u\": {"
  , "              \"\": \"っくぅ\""
  , "            },"
  , "            \"e\": {"
  , "              \"\": \"っくぇ\""
  , "            },"
  , "            \"o\": {"
  , "              \"\": \"っくぉ\""
  , "            }"
  , "          },"
  , "          \"a\": {"
  , "            \"\": \"っくぁ\""
  , "          },"
  , "          \"i\": {"
  , "            \"\": \"っくぃ\""
  , "          },"
  , "          \"u\": {"
  , "            \"\": \"っくぅ\""
  , "          },"
  , "          \"e\": {"
  , "            \"\": \"っくぇ\""
  , "          },"
  , "          \"o\": {"
  , "            \"\": \"っくぉ\""
  , "          }"
  , "        }"
  , "      },"
  , "      \"f\": {"
  , "        \"y\": {"
  , "          \"a\": {"
  , "            \"\": \"ふゃ\""
  , "          },"
  , "          \"i\": {"
  , "            \"\": \"ふぃ\""
  , "          },"
  , "          \"u\": {"
  , "            \"\": \"ふゅ\""
  , "          },"
  , "          \"e\": {"
  , "            \"\": \"ふぇ\""
  , "          },"
  , "          \"o\": {"
  , "            \"\": \"ふょ\""
  , "          }"
  , "        },"
  , "        \"w\": {"
  , "          \"a\": {"
  , "            \"\": \"ふぁ\""
  , "          },"
  , "          \"i\": {"
  , "            \"\": \"ふぃ\""
  , "          },"
  , "          \"u\": {"
  , "            \"\": \"ふぅ\""
  , "          },"
  , "          \"e\": {"
  , "            \"\": \"ふぇ\""
  , "          },"
  , "          \"o\": {"
  , "            \"\": \"ふぉ\""
  , "          }"
  , "        },"
  , "        \"a\": {"
  , "          \"\": \"ふぁ\""
  , "        },"
  , "        \"i\": {"
  , "          \"\": \"ふぃ\""
  , "        },"
  , "        \"u\": {"
  , "          \"\": \"ふ\""
  , "        },"
  , "        \"e\": {"
  , "          \"\": \"ふぇ\""
  , "        },"
  , "        \"o\": {"
  , "          \"\": \"ふぉ\""
  , "        },"
  , "        \"f\": {"
  , "          \"y\": {"
  , "            \"a\": {"
  , "              \"\": \"っふゃ\""
  , "            },"
  , "            \"i\": {"
  , "              \"\": \"っふぃ\""
  , "            },"
  , "            \"u\": {"
  , "              \"\": \"っふゅ\""
  , "            },"
  , "            \"e\": {"
  , "              \"\": \"っふぇ\""
  , "            },"
  , "            \"o\": {"
  , "              \"\": \"っふょ\""
  , "            }"
  , "          },"
  , "          \"w\": {"
  , "            \"a\": {"
  , "              \"\": \"っふぁ\""
  , "            },"
  , "            \"i\": {"
  , "              \"\": \"っふぃ\""
  , "            },"
  , "            \"u\": {"
  , "              \"\": \"っふぅ\""
  , "            },"
  , "            \"e\": {"
  , "              \"\": \"っふぇ\""
  , "            },"
  , "            \"o\": {"
  , "              \"\": \"っふぉ\""
  , "            }"
  , "          },"
  , "          \"a\": {"
  , "            \"\": \"っふぁ\""
  , "          },"
  , "          \"i\": {"
  , "            \"\": \"っふぃ\""
  , "          },"
  , "          \"u\": {"
  , "            \"\": \"っふ\""
  , "          },"
  , "          \"e\": {"
  , "            \"\": \"っふぇ\""
  , "          },"
  , "          \"o\": {"
  , "            \"\": \"っふぉ\""
  , "          }"
  , "        }"
  , "      },"
  , "      \".\": {"
  , "        \"\": \"。\""
  , "      },"
  , "      \",\": {"
  , "        \"\": \"、\""
  , "      },"
  , "      \":\": {"
  , "        \"\": \"：\""]

/-- upstream_conversions/src/bin/to_kana_tree.rs:1516-1765 -/
def kanaJson6 : List String :=
  ["      },"
  , "      \"/\": {"
  , "        \"\": \"・\""
  , "      },"
  , "      \"!\": {"
  , "        \"\": \"！\""
  , "      },"
  , "      \"?\": {"
  , "        \"\": \"？\""
  , "      },"
  , "      \"~\": {"
  , "        \"\": \"〜\""
  , "      },"
  , "      \"-\": {"
  , "        \"\": \"ー\""
  , "      },"
  , "      \"‘\": {"
  , "        \"\": \"「\""
  , "      },"
  , "      \"’\": {"
  , "        \"\": \"」\""
  , "      },"
  , "      \"“\": {"
  , "        \"\": \"『\""
  , "      },"
  , "      \"”\": {"
  , "        \"\": \"』\""
  , "      },"
  , "      \"[\": {"
  , "        \"\": \"［\""
  , "      },"
  , "      \"]\": {"
  , "        \"\": \"］\""
  , "      },"
  , "      \"(\": {"
  , "        \"\": \"（\""
  , "      },"
  , "      \")\": {"
  , "        \"\": \"）\""
  , "      },"
  , "      \"{\": {"
  , "        \"\": \"｛\""
  , "      },"
  , "      \"}\": {"
  , "        \"\": \"｝\""
  , "      },"
  , "      \"x\": {"
  , "        \"n\": {"
  , "          \"\": \"ん\""
  , "        },"
  , "        \"t\": {"
  , "          \"u\": {"
  , "            \"\": \"っ\""
  , "          },"
  , "          \"s\": {"
  , "            \"u\": {"
  , "              \"\": \"っ\""
  , "            }"
  , "          }"
  , "        },"
  , "        \"w\": {"
  , "          \"a\": {"
  , "            \"\": \"ゎ\""
  , "          }"
  , "        },"
  , "        \"k\": {"
  , "          \"a\": {"
  , "            \"\": \"ヵ\""
  , "          },"
  , "          \"e\": {"
  , "            \"\": \"ヶ\""
  , "          }"
  , "        },"
  , "        \"c\": {"
  , "          \"a\": {"
  , "            \"\": \"ヵ\""
  , "          },"
  , "          \"e\": {"
  , "            \"\": \"ヶ\""
  , "          }"
  , "        },"
  , "        \"a\": {"
  , "          \"\": \"ぁ\""
  , "        },"
  , "        \"i\": {"
  , "          \"\": \"ぃ\""
  , "        },"
  , "        \"u\": {"
  , "          \"\": \"ぅ\""
  , "        },"
  , "        \"e\": {"
  , "          \"\": \"ぇ\""
  , "        },"
  , "        \"o\": {"
  , "          \"\": \"ぉ\""
  , "        },"
  , "        \"y\": {"
  , "          \"a\": {"
  , "            \"\": \"ゃ\""
  , "          },"
  , "          \"i\": {"
  , "            \"\": \"ぃ\""
  , "          },"
  , "          \"u\": {"
  , "            \"\": \"ゅ\""
  , "          },"
  , "          \"e\": {"
  , "            \"\": \"ぇ\""
  , "          },"
  , "          \"o\": {"
  , "            \"\": \"ょ\""
  , "          }"
  , "        }"
  , "      },"
  , "      \"c\": {"
  , "        \"a\": {"
  , "          \"\": \"か\""
  , "        },"
  , "        \"i\": {"
  , "          \"\": \"き\""
  , "        },"
  , "        \"u\": {"
  , "          \"\": \"く\""
  , "        },"
  , "        \"e\": {"
  , "          \"\": \"け\""
  , "        },"
  , "        \"o\": {"
  , "          \"\": \"こ\""
  , "        },"
  , "        \"y\": {"
  , "          \"a\": {"
  , "            \"\": \"ちゃ\""
  , "          },"
  , "          \"i\": {"
  , "            \"\": \"ちぃ\""
  , "          },"
  , "          \"u\": {"
  , "            \"\": \"ちゅ\""
  , "          },"
  , "          \"e\": {"
  , "            \"\": \"ちぇ\""
  , "          },"
  , "          \"o\": {"
  , "            \"\": \"ちょ\""
  , "          }"
  , "        },"
  , "        \"h\": {"
  , "          \"a\": {"
  , "            \"\": \"ちゃ\""
  , "          },"
  , "          \"i\": {"
  , "            \"\": \"ち\""
  , "          },"
  , "          \"u\": {"
  , "            \"\": \"ちゅ\""
  , "          },"
  , "          \"e\": {"
  , "            \"\": \"ちぇ\""
  , "          },"
  , "          \"o\": {"
  , "            \"\": \"ちょ\""
  , "          },"
  , "          \"y\": {"
  , "            \"a\": {"
  , "              \"\": \"ちゃ\""
  , "            },"
  , "            \"i\": {"
  , "              \"\": \"ちぃ\""
  , "            },"
  , "            \"u\": {"
  , "              \"\": \"ちゅ\""
  , "            },"
  , "            \"e\": {"
  , "              \"\": \"ちぇ\""
  , "            },"
  , "            \"o\": {"
  , "              \"\": \"ちょ\""
  , "            }"
  , "          }"
  , "        },"
  , "        \"c\": {"
  , "          \"a\": {"
  , "            \"\": \"っか\""
  , "          },"
  , "          \"i\": {"
  , "            \"\": \"っき\""
  , "          },"
  , "          \"u\": {"
  , "            \"\": \"っく\""
  , "          },"
  , "          \"e\": {"
  , "            \"\": \"っけ\""
  , "          },"
  , "          \"o\": {"
  , "            \"\": \"っこ\""
  , "          },"
  , "          \"y\": {"
  , "            \"a\": {"
  , "              \"\": \"っちゃ\""
  , "            },"
  , "            \"i\": {"
  , "              \"\": \"っちぃ\""
  , "            },"
  , "            \"u\": {"
  , "              \"\": \"っちゅ\""
  , "            },"
  , "            \"e\": {"
  , "              \"\": \"っちぇ\""
  , "            },"
  , "            \"o\": {"
  , "              \"\": \"っちょ\""
  , "            }"
  , "          },"
  , "          \"h\": {"
  , "            \"a\": {"
  , "              \"\": \"っちゃ\""
  , "            },"
  , "            \"i\": {"
  , "              \"\": \"っち\""
  , "            },"
  , "            \"u\": {"
  , "              \"\": \"っちゅ\""
  , "            },"
  , "            \"e\": {"
  , "              \"\": \"っちぇ\""
  , "            },"
  , "            \"o\": {"
  , "              \"\": \"っちょ\""
  , "            },"
  , "            \"y\": {"
  , "              \"a\": {"
  , "                \"\": \"っちゃ\""
  , "              },"
  , "              \"i\": {"
  , "                \"\": \"っちぃ\""
  , "              },"
  , "              \"u\": {"
  , "                \"\": \"っちゅ\""
  , "              },"
  , "              \"e\": {"
  , "                \"\": \"っちぇ\""
  , "              },"
  , "              \"o\": {"
  , "                \"\": \"っちょ\""
  , "              }"
  , "            }"
  , "          }"
  , "        }"
  , "      },"]

/-- upstream_conversions/src/bin/to_kana_tree.rs:1766-1899 -/
def kanaJson7 : List String :=
  ["      \"j\": {"
  , "        \"a\": {"
  , "          \"\": \"じゃ\""
  , "        },"
  , "        \"i\": {"
  , "          \"\": \"じ\""
  , "        },"
  , "        \"u\": {"
  , "          \"\": \"じゅ\""
  , "        },"
  , "        \"e\": {"
  , "          \"\": \"じぇ\""
  , "        },"
  , "        \"o\": {"
  , "          \"\": \"じょ\""
  , "        },"
  , "        \"y\": {"
  , "          \"a\": {"
  , "            \"\": \"じゃ\""
  , "          },"
  , "          \"i\": {"
  , "            \"\": \"じぃ\""
  , "          },"
  , "          \"u\": {"
  , "            \"\": \"じゅ\""
  , "          },"
  , "          \"e\": {"
  , "            \"\": \"じぇ\""
  , "          },"
  , "          \"o\": {"
  , "            \"\": \"じょ\""
  , "          }"
  , "        },"
  , "        \"j\": {"
  , "          \"a\": {"
  , "            \"\": \"っじゃ\""
  , "          },"
  , "          \"i\": {"
  , "            \"\": \"っじ\""
  , "          },"
  , "          \"u\": {"
  , "            \"\": \"っじゅ\""
  , "          },"
  , "          \"e\": {"
  , "            \"\": \"っじぇ\""
  , "          },"
  , "          \"o\": {"
  , "            \"\": \"っじょ\""
  , "          },"
  , "          \"y\": {"
  , "            \"a\": {"
  , "              \"\": \"っじゃ\""
  , "            },"
  , "            \"i\": {"
  , "              \"\": \"っじぃ\""
  , "            },"
  , "            \"u\": {"
  , "              \"\": \"っじゅ\""
  , "            },"
  , "            \"e\": {"
  , "              \"\": \"っじぇ\""
  , "            },"
  , "            \"o\": {"
  , "              \"\": \"っじょ\""
  , "            }"
  , "          }"
  , "        }"
  , "      },"
  , "      \"l\": {"
  , "        \"t\": {"
  , "          \"u\": {"
  , "            \"\": \"っ\""
  , "          },"
  , "          \"s\": {"
  , "            \"u\": {"
  , "              \"\": \"っ\""
  , "            }"
  , "          }"
  , "        },"
  , "        \"w\": {"
  , "          \"a\": {"
  , "            \"\": \"ゎ\""
  , "          }"
  , "        },"
  , "        \"k\": {"
  , "          \"a\": {"
  , "            \"\": \"ヵ\""
  , "          },"
  , "          \"e\": {"
  , "            \"\": \"ヶ\""
  , "          }"
  , "        },"
  , "        \"c\": {"
  , "          \"a\": {"
  , "            \"\": \"ヵ\""
  , "          },"
  , "          \"e\": {"
  , "            \"\": \"ヶ\""
  , "          }"
  , "        },"
  , "        \"a\": {"
  , "          \"\": \"ぁ\""
  , "        },"
  , "        \"i\": {"
  , "          \"\": \"ぃ\""
  , "        },"
  , "        \"u\": {"
  , "          \"\": \"ぅ\""
  , "        },"
  , "        \"e\": {"
  , "          \"\": \"ぇ\""
  , "        },"
  , "        \"o\": {"
  , "          \"\": \"ぉ\""
  , "        },"
  , "        \"y\": {"
  , "          \"a\": {"
  , "            \"\": \"ゃ\""
  , "          },"
  , "          \"i\": {"
  , "            \"\": \"ぃ\""
  , "          },"
  , "          \"u\": {"
  , "            \"\": \"ゅ\""
  , "          },"
  , "          \"e\": {"
  , "            \"\": \"ぇ\""
  , "          },"
  , "          \"o\": {"
  , "            \"\": \"ょ\""
  , "          }"
  , "        }"
  , "      }"
  , "    });"]

/-- upstream_conversions/src/bin/to_kana_tree.rs:16-1899 -/
def kanaJsonText : List String :=
  kanaJson0 ++ kanaJson1 ++ kanaJson2 ++ kanaJson3 ++ kanaJson4 ++ kanaJson5 ++ kanaJson6 ++ kanaJson7

end WanaKana
