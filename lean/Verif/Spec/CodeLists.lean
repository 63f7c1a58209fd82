import Verif.Base.Bytes

/-!
# Code lists

The codes of ISO 639-2/B (bibliographic codes, without the range `qaa-qtz` reserved for local
use), by first letter. The table was written down separately from the model's list, from memory: no
copy of the standard was at hand, so that this table is the standard's is an assumption, not a result.
-/

namespace Pica.Spec

/-- first letter, and the other two letters -/
def iso6392b : List (String × List String) := [
  ("a", ["ar", "bk", "ce", "ch", "da", "dy", "fa", "fh", "fr", "in", "ka", "kk", "lb", "le", "lg", "lt", "mh",
    "ng", "np", "pa", "ra", "rc", "rg", "rm", "rn", "rp", "rt", "rw", "sm", "st", "th", "us", "va", "ve", "wa",
    "ym", "ze"]),
  ("b", ["ad", "ai", "ak", "al", "am", "an", "aq", "as", "at", "ej", "el", "em", "en", "er", "ho", "ih", "ik",
    "in", "is", "la", "nt", "os", "ra", "re", "tk", "ua", "ug", "ul", "ur", "yn"]),
  ("c", ["ad", "ai", "ar", "at", "au", "eb", "el", "ha", "hb", "he", "hg", "hi", "hk", "hm", "hn", "ho", "hp",
    "hr", "hu", "hv", "hy", "mc", "nr", "op", "or", "os", "pe", "pf", "pp", "re", "rh", "rp", "sb", "us", "ze"]),
  ("d", ["ak", "an", "ar", "ay", "el", "en", "gr", "in", "iv", "oi", "ra", "sb", "ua", "um", "ut", "yu", "zo"]),
  ("e", ["fi", "gy", "ka", "lx", "ng", "nm", "po", "st", "we", "wo"]),
  ("f", ["an", "ao", "at", "ij", "il", "in", "iu", "on", "re", "rm", "ro", "rr", "rs", "ry", "ul", "ur"]),
  ("g", ["aa", "ay", "ba", "em", "eo", "er", "ez", "il", "la", "le", "lg", "lv", "mh", "oh", "on", "or", "ot",
    "rb", "rc", "re", "rn", "sw", "uj", "wi"]),
  ("h", ["ai", "at", "au", "aw", "eb", "er", "il", "im", "in", "it", "mn", "mo", "rv", "sb", "un", "up"]),
  ("i", ["ba", "bo", "ce", "do", "ii", "jo", "ku", "le", "lo", "na", "nc", "nd", "ne", "nh", "pk", "ra", "ro",
    "ta"]),
  ("j", ["av", "bo", "pn", "pr", "rb"]),
  ("k", ["aa", "ab", "ac", "al", "am", "an", "ar", "as", "au", "aw", "az", "bd", "ha", "hi", "hm", "ho", "ik",
    "in", "ir", "mb", "ok", "om", "on", "or", "os", "pe", "rc", "rl", "ro", "ru", "ua", "um", "ur", "ut"]),
  ("l", ["ad", "ah", "am", "ao", "at", "av", "ez", "im", "in", "it", "ol", "oz", "tz", "ua", "ub", "ug", "ui",
    "un", "uo", "us"]),
  ("m", ["ac", "ad", "ag", "ah", "ai", "ak", "al", "an", "ao", "ap", "ar", "as", "ay", "df", "dr", "en", "ga",
    "ic", "in", "is", "kh", "lg", "lt", "nc", "ni", "no", "oh", "on", "os", "ul", "un", "us", "wl", "wr", "yn",
    "yv"]),
  ("n", ["ah", "ai", "ap", "au", "av", "bl", "de", "do", "ds", "ep", "ew", "ia", "ic", "iu", "no", "ob", "og",
    "on", "or", "qo", "so", "ub", "wc", "ya", "ym", "yn", "yo", "zi"]),
  ("o", ["ci", "ji", "ri", "rm", "sa", "ss", "ta", "to"]),
  ("p", ["aa", "ag", "al", "am", "an", "ap", "au", "eo", "er", "hi", "hn", "li", "ol", "on", "or", "ra", "ro",
    "us"]),
  ("q", ["ue"]),
  ("r", ["aj", "ap", "ar", "oa", "oh", "om", "um", "un", "up", "us"]),
  ("s", ["ad", "ag", "ah", "ai", "al", "am", "an", "as", "at", "cn", "co", "el", "em", "ga", "gn", "hn", "id",
    "in", "io", "it", "la", "lo", "lv", "ma", "me", "mi", "mj", "mn", "mo", "ms", "na", "nd", "nk", "og", "om",
    "on", "ot", "pa", "rd", "rn", "rp", "rr", "sa", "sw", "uk", "un", "us", "ux", "wa", "we", "yc", "yr"]),
  ("t", ["ah", "ai", "am", "at", "el", "em", "er", "et", "gk", "gl", "ha", "ib", "ig", "ir", "iv", "kl", "lh",
    "li", "mh", "og", "on", "pi", "si", "sn", "so", "uk", "um", "up", "ur", "ut", "vl", "wi", "yv"]),
  ("u", ["dm", "ga", "ig", "kr", "mb", "nd", "rd", "zb"]),
  ("v", ["ai", "en", "ie", "ol", "ot"]),
  ("w", ["ak", "al", "ar", "as", "el", "en", "ln", "ol"]),
  ("x", ["al", "ho"]),
  ("y", ["ao", "ap", "id", "or", "pk"]),
  ("z", ["ap", "bl", "en", "gh", "ha", "nd", "ul", "un", "xx", "za"])]

/-- a bibliographic code of ISO 639-2 -/
def IsIso6392b (v : Bytes) : Prop := ∃ x ∈ iso6392b, ∃ t ∈ x.2, v = bs x.1 ++ bs t

/-- the languages with two codes: bibliographic and terminological code -/
def twoCodes : List (String × String) := [
  ("alb", "sqi"), ("arm", "hye"), ("baq", "eus"), ("bur", "mya"), ("chi", "zho"), ("cze", "ces"), ("dut", "nld"),
  ("fre", "fra"), ("geo", "kat"), ("ger", "deu"), ("gre", "ell"), ("ice", "isl"), ("mac", "mkd"), ("mao", "mri"),
  ("may", "msa"), ("per", "fas"), ("rum", "ron"), ("slo", "slk"), ("tib", "bod"), ("wel", "cym")]

/-- the form of the codes of the JEL classification in the program: a capital letter and one digit (a
category) or two digits -/
def JelForm (v : Bytes) : Prop :=
  ∃ c ds, v = c :: ds ∧ 0x41 ≤ c ∧ c ≤ 0x5A ∧ (ds.length = 1 ∨ ds.length = 2) ∧ ∀ d ∈ ds, 0x30 ≤ d ∧ d ≤ 0x39

end Pica.Spec
