/-!
# The lexical symbols of a language dictionary (`i18n/*/dictionary.h`)

Citrine is compiled once per natural language; the symbols below are the string macros the lexer and parser use.
They are inputs of both the model and the specifications.  They are C string literals whose lengths are taken
with `strlen` (`citrine.c:108-117`), hence contain no NUL byte.
-/

namespace Verif.Spec

/-- Symbols of a dictionary: `CTR_DICT_END_OF_LINE`, `CTR_DICT_MESSAGE_CHAIN`, `CTR_DICT_ASSIGN`,
`CTR_DICT_RETURN`, `CTR_DICT_QUOT_OPEN`, `CTR_DICT_QUOT_CLOSE`, `CTR_DICT_NUM_THO_SEP`, `CTR_DICT_NUM_DEC_SEP`,
`CTR_DICT_MY_ICON`, `CTR_DICT_VAR_ICON` and the first byte of `CTR_DICT_PARAMETER_PREFIX`
(`i18n/en/dictionary.h`, `citrine.c:104-117`). -/
structure Dict where
  eol : List UInt8
  chain : List UInt8
  assign : List UInt8
  ret : List UInt8
  qo : List UInt8
  qc : List UInt8
  tho : List UInt8
  dec : List UInt8
  my : List UInt8
  var : List UInt8
  param : UInt8

/-- The English dictionary, `i18n/en/dictionary.h`. -/
def english : Dict where
  eol := [46]
  chain := [44]
  assign := [58, 61]
  ret := [60, 45]
  qo := [91, 39]
  qc := [39, 93]
  tho := [44]
  dec := [46]
  my := [111, 119, 110]
  var := [62, 62]
  param := 58

end Verif.Spec
