import Verif.Core

/-!
# Names in the library code (C104)

Written by `tools/gen_code.py` from prim.c, env.c, prelude.min and boot.min.  Numbers below `kernel` are names bound by the C code, numbers below `preludeGlobals` are
names bound by it or defined in prelude.min, numbers below `globals` are names bound by it or defined in prelude.min or boot.min, the others are names of local variables and of nothing.
-/

set_option autoImplicit false

namespace Minim.Lib

open Minim.Sx Minim.Core

/-- The number of names the C code binds (`init_envs`, env.c:186-194; `init_prims`, prim.c:17-229), without `values`. -/
def kernel : Nat := 179

/-- The number of names bound by the C code or defined in prelude.min, without `values` and `call-with-values`. -/
def preludeGlobals : Nat := 396

/-- The number of names bound by the C code or defined in prelude.min or boot.min, without `values` and `call-with-values`. -/
def globals : Nat := 535

/-- The number of arguments of the C functions with numbers below `kernel` (`add_procedure`); `none` for the names bound otherwise. -/
def arities : List (Option Nat) := [none, none, none, none, some 1, some 1, some 1, some 1, some 1, some 1, some 1, some 1, some 1, some 1, some 1, some 2, some
  1, some 1, some 1, some 1, some 1, some 1, some 1, some 1, some 1, some 1, some 1, some 1, some 1, some 1, some 1, some 1, some 1, some 1, some 1, some 1,
  some 1, some 1, some 1, some 1, some 1, some 1, some 1, some 1, some 1, some 1, some 2, some 2, some 2, some 1, some 1, some 2, some 1, some 2, some 1, some
  2, some 3, some 2, some 1, some 1, some 1, some 1, some 2, some 2, some 2, some 2, some 2, some 2, some 2, some 2, some 2, some 2, some 2, some 1, some 2,
  some 1, some 2, some 3, some 1, some 1, some 1, some 1, some 1, some 1, some 1, some 1, some 6, some 1, some 1, some 1, some 1, some 1, some 1, some 1, some
  2, some 1, some 2, some 1, some 2, some 3, some 0, some 1, some 0, some 1, some 1, some 1, some 1, some 2, some 1, some 1, some 1, some 1, some 1, some 2,
  some 1, some 2, some 3, some 1, some 2, some 2, some 1, some 1, some 1, some 1, some 1, some 1, some 1, some 1, some 1, some 0, some 0, some 3, some 1, some
  3, some 3, some 0, some 1, some 1, some 1, some 1, some 2, some 1, some 1, some 1, some 0, some 0, some 0, some 1, some 1, some 1, some 0, some 1, some 1,
  some 1, some 1, some 1, some 1, some 1, some 2, some 4, some 1, some 1, some 1, some 2, some 1, some 1, some 0, some 0, some 0, some 1, some 1, some 0, some
  1, some 3, none, none, none, none, none]

/-- The arities of the procedures that are values of global variables, as far as one can see: for each clause, the number of required arguments, and whether more are
accepted.  That this is right is checked in LibCallsProps.lean. -/
def globalArities : List (Option (List (Nat × Bool))) := [none, none, none, none, some [(1, false)], some [(1, false)], some [(1, false)], some [(1, false)],
  some [(1, false)], some [(1, false)], some [(1, false)], some [(1, false)], some [(1, false)], some [(1, false)], some [(1, false)], some [(2, false)], some
  [(1, false)], some [(1, false)], some [(1, false)], some [(1, false)], some [(1, false)], some [(1, false)], some [(1, false)], some [(1, false)], some [(1,
  false)], some [(1, false)], some [(1, false)], some [(1, false)], some [(1, false)], some [(1, false)], some [(1, false)], some [(1, false)], some [(1,
  false)], some [(1, false)], some [(1, false)], some [(1, false)], some [(1, false)], some [(1, false)], some [(1, false)], some [(1, false)], some [(1,
  false)], some [(1, false)], some [(1, false)], some [(1, false)], some [(1, false)], some [(1, false)], some [(2, false)], some [(2, false)], some [(2,
  false)], some [(1, false)], some [(1, false)], some [(2, false)], some [(1, false)], some [(2, false)], some [(1, false)], some [(2, false)], some [(3,
  false)], some [(2, false)], some [(1, false)], some [(1, false)], some [(1, false)], some [(1, false)], some [(2, false)], some [(2, false)], some [(2,
  false)], some [(2, false)], some [(2, false)], some [(2, false)], some [(2, false)], some [(2, false)], some [(2, false)], some [(2, false)], some [(2,
  false)], some [(1, false)], some [(2, false)], some [(1, false)], some [(2, false)], some [(3, false)], some [(1, false)], some [(1, false)], some [(1,
  false)], some [(1, false)], some [(1, false)], some [(1, false)], some [(1, false)], some [(1, false)], some [(6, false)], some [(1, false)], some [(1,
  false)], some [(1, false)], some [(1, false)], some [(1, false)], some [(1, false)], some [(1, false)], some [(2, false)], some [(1, false)], some [(2,
  false)], some [(1, false)], some [(2, false)], some [(3, false)], some [(0, false)], some [(1, false)], some [(0, false)], some [(1, false)], some [(1,
  false)], some [(1, false)], some [(1, false)], some [(2, false)], some [(1, false)], some [(1, false)], some [(1, false)], some [(1, false)], some [(1,
  false)], some [(2, false)], some [(1, false)], some [(2, false)], some [(3, false)], some [(1, false)], some [(2, false)], some [(2, false)], some [(1,
  false)], some [(1, false)], some [(1, false)], some [(1, false)], some [(1, false)], some [(1, false)], some [(1, false)], some [(1, false)], some [(1,
  false)], some [(0, false)], some [(0, false)], some [(3, false)], some [(1, false)], some [(3, false)], some [(3, false)], some [(0, false)], some [(1,
  false)], some [(1, false)], some [(1, false)], some [(1, false)], some [(2, false)], some [(1, false)], some [(1, false)], some [(1, false)], some [(0,
  false)], some [(0, false)], some [(0, false)], some [(1, false)], some [(1, false)], some [(1, false)], some [(0, false)], some [(1, false)], some [(1,
  false)], some [(1, false)], some [(1, false)], some [(1, false)], some [(1, false)], some [(1, false)], some [(2, false)], some [(4, false)], some [(1,
  false)], some [(1, false)], some [(1, false)], some [(2, false)], some [(1, false)], some [(1, false)], some [(0, false)], some [(0, false)], some [(0,
  false)], some [(1, false)], some [(1, false)], some [(0, false)], some [(1, false)], some [(3, false)], none, some [(2, true)], none, none, none, some [(2,
  true)], some [(2, true)], some [(3, false)], some [(3, false)], some [(6, false)], some [(4, false)], some [(1, false)], some [(1, false)], some [(1, false)],
  some [(1, false)], some [(1, false)], some [(1, false)], some [(1, false)], some [(1, false)], some [(1, false)], some [(1, false)], some [(1, false)], some
  [(1, false)], some [(1, false)], some [(1, false)], some [(1, false)], some [(1, false)], some [(1, false)], some [(1, false)], some [(1, false)], some [(1,
  false)], some [(1, false)], some [(1, false)], some [(1, false)], some [(1, false)], some [(1, false)], some [(1, false)], some [(1, false)], some [(1,
  false)], some [(1, false)], some [(1, false)], some [(2, false)], some [(2, false)], some [(1, false)], some [(1, false)], none, none, none, none, none, some
  [(1, false)], some [(1, false)], some [(1, false)], some [(1, false)], some [(1, false)], some [(1, false)], some [(1, false)], some [(0, false), (1, false),
  (2, false), (2, true)], some [(1, false), (2, false), (2, true)], some [(0, false), (1, false), (2, false), (2, true)], some [(1, false), (2, false), (2,
  true)], some [(1, false)], some [(1, false)], some [(2, false)], some [(2, false)], some [(1, false)], some [(1, false)], some [(1, false)], some [(2,
  false)], some [(1, false)], some [(1, false)], some [(0, true)], some [(1, false)], some [(1, false), (2, false)], some [(1, false)], some [(2, false)], some
  [(3, false)], some [(0, false), (1, false), (1, true)], some [(1, false)], some [(1, false)], some [(1, false)], some [(1, false)], some [(1, false)], some
  [(0, true)], some [(2, false)], some [(1, false)], some [(1, false)], some [(0, false), (1, false), (2, false), (0, true)], some [(2, false), (2, true)], some
  [(2, false), (2, true)], some [(2, false), (2, true)], some [(2, false), (2, true)], some [(1, false)], some [(1, false)], some [(0, true)], some [(1, false),
  (2, false)], some [(1, false)], some [(2, false)], some [(3, false)], some [(2, false)], some [(1, false)], some [(1, false)], some [(1, false)], some [(2,
  false)], some [(1, false)], some [(1, false)], some [(1, false)], some [(1, false)], some [(1, false)], some [(1, false)], some [(6, false)], none, none,
  none, none, none, none, some [(2, false)], some [(1, false)], some [(1, false)], some [(1, false)], some [(2, false)], some [(2, false)], some [(2, false)],
  none, none, none, none, none, some [(1, false)], some [(0, false)], some [(0, false)], some [(1, false)], some [(1, false)], some [(1, false)], some [(1,
  false)], some [(2, false)], some [(2, false), (3, false)], some [(3, false)], some [(3, false), (4, false)], some [(2, false)], some [(1, false)], some [(0,
  false), (1, false)], some [(0, false), (1, false)], some [(1, false), (2, false)], some [(1, false), (2, false)], some [(2, false)], some [(1, false)], some
  [(1, false), (2, false)], some [(2, false)], some [(1, false)], none, none, none, none, some [(2, false)], some [(2, false), (3, false), (4, false)], some
  [(1, false)], some [(1, false), (2, false)], some [(2, false)], some [(1, false), (2, false)], some [(1, false), (2, false)], some [(0, false), (1, false)],
  some [(2, true)], some [(1, true)], some [(1, true)], some [(1, true)], some [(1, false)], some [(2, false)], some [(1, false)], some [(1, false)], some [(1,
  false)], some [(1, false)], some [(2, false)], none, none, none, some [(1, false), (2, false), (3, false)], some [(1, false)], some [(2, false), (3, false)],
  some [(3, false)], some [(0, false), (1, false)], some [(1, false)], some [(0, false), (1, false)], some [(0, false), (1, false)], some [(0, false), (1,
  false)], none, none, none, none, none, none, none, none, none, none, none, none, none, none, none, none, none, none, none, none, none, none, none, none, none,
  none, none, none, none, none, none, none, none, none, some [(1, false)], some [(2, false), (3, false), (4, false)], some [(1, true)], some [(1, false)], some
  [(1, false)], some [(1, false)], some [(1, false)], some [(1, false)], some [(1, false)], some [(1, false)], some [(1, false)], some [(1, false)], some [(1,
  false)], some [(2, false)], some [(2, false)], some [(2, false)], some [(2, false)], some [(2, false)], some [(3, false)], some [(3, false)], some [(2,
  false)], some [(2, false)], some [(3, false)], some [(1, false)], some [(1, true)], some [(1, false)], some [(1, false)], none, none, none, none, none, some
  [(2, false)], some [(2, false)], some [(1, false)], none, some [(3, false)], some [(2, false)], some [(1, false)], none, none, none, none, none, none, none,
  none, some [(2, false)], some [(2, false)], some [(1, false)], some [(1, false)], some [(1, false)], some [(2, false)], some [(2, false)], some [(1, false)],
  some [(1, false)], some [(2, false)], some [(2, false)], some [(2, false)], some [(2, false)], some [(2, false)], some [(0, true)], some [(0, true)], some
  [(1, true)], some [(1, true)], some [(3, false)], some [(1, false)], some [(2, false)], some [(1, false)], some [(1, false)], some [(1, false)], some [(1,
  false)], some [(1, false)], some [(1, false)], some [(2, false)], some [(1, false)], some [(2, false)], some [(2, false)], some [(2, true)], some [(1,
  false)], some [(3, false)], none, none, none, none, none, none, none, some [(0, false)], some [(1, false)], some [(2, false)], some [(1, false)], some [(2,
  false)], none, none, some [(2, false)], some [(2, false)], some [(1, false)], none, none, none, none, none, none, none, none, none, none, none, none, some
  [(1, false)], some [(2, false)], some [(2, false)], some [(2, false)], some [(1, false)], some [(1, false)], some [(1, false)], some [(1, false)], some [(2,
  false)], some [(1, false)], some [(4, false)], none, some [(1, false)], some [(1, false)], some [(1, false)], some [(3, false)], some [(5, false)], some [(4,
  false)], some [(1, false)], none, none, none, some [(3, false)], some [(2, false)], some [(3, false)], some [(3, false)], some [(4, false)], some [(3,
  false)], some [(1, false)], some [(1, false)], some [(1, false)]]

namespace S

/-- env.c:190 -/
abbrev «null» : Sym := .user 0
/-- env.c:191 -/
abbrev «true» : Sym := .user 1
/-- env.c:192 -/
abbrev «false» : Sym := .user 2
/-- env.c:193 -/
abbrev «eof» : Sym := .user 3
/-- prim.c:27 -/
abbrev «null?» : Sym := .user 4
/-- prim.c:28 -/
abbrev «void?» : Sym := .user 5
/-- prim.c:29 -/
abbrev «eof-object?» : Sym := .user 6
/-- prim.c:31 -/
abbrev «boolean?» : Sym := .user 7
/-- prim.c:32 -/
abbrev «not» : Sym := .user 8
/-- prim.c:34 -/
abbrev «char?» : Sym := .user 9
/-- prim.c:35 -/
abbrev «$char->integer» : Sym := .user 10
/-- prim.c:36 -/
abbrev «$integer->char» : Sym := .user 11
/-- prim.c:38 -/
abbrev «symbol?» : Sym := .user 12
/-- prim.c:40 -/
abbrev «pair?» : Sym := .user 13
/-- prim.c:41 -/
abbrev «list?» : Sym := .user 14
/-- prim.c:42 -/
abbrev «cons» : Sym := .user 15
/-- prim.c:43 -/
abbrev «$car» : Sym := .user 16
/-- prim.c:44 -/
abbrev «$cdr» : Sym := .user 17
/-- prim.c:45 -/
abbrev «$caar» : Sym := .user 18
/-- prim.c:46 -/
abbrev «$cadr» : Sym := .user 19
/-- prim.c:47 -/
abbrev «$cdar» : Sym := .user 20
/-- prim.c:48 -/
abbrev «$cddr» : Sym := .user 21
/-- prim.c:49 -/
abbrev «$caaar» : Sym := .user 22
/-- prim.c:50 -/
abbrev «$caadr» : Sym := .user 23
/-- prim.c:51 -/
abbrev «$cadar» : Sym := .user 24
/-- prim.c:52 -/
abbrev «$caddr» : Sym := .user 25
/-- prim.c:53 -/
abbrev «$cdaar» : Sym := .user 26
/-- prim.c:54 -/
abbrev «$cdadr» : Sym := .user 27
/-- prim.c:55 -/
abbrev «$cddar» : Sym := .user 28
/-- prim.c:56 -/
abbrev «$cdddr» : Sym := .user 29
/-- prim.c:57 -/
abbrev «$caaaar» : Sym := .user 30
/-- prim.c:58 -/
abbrev «$caaadr» : Sym := .user 31
/-- prim.c:59 -/
abbrev «$caadar» : Sym := .user 32
/-- prim.c:60 -/
abbrev «$caaddr» : Sym := .user 33
/-- prim.c:61 -/
abbrev «$cadaar» : Sym := .user 34
/-- prim.c:62 -/
abbrev «$cadadr» : Sym := .user 35
/-- prim.c:63 -/
abbrev «$caddar» : Sym := .user 36
/-- prim.c:64 -/
abbrev «$cadddr» : Sym := .user 37
/-- prim.c:65 -/
abbrev «$cdaaar» : Sym := .user 38
/-- prim.c:66 -/
abbrev «$cdaadr» : Sym := .user 39
/-- prim.c:67 -/
abbrev «$cdadar» : Sym := .user 40
/-- prim.c:68 -/
abbrev «$cdaddr» : Sym := .user 41
/-- prim.c:69 -/
abbrev «$cddaar» : Sym := .user 42
/-- prim.c:70 -/
abbrev «$cddadr» : Sym := .user 43
/-- prim.c:71 -/
abbrev «$cdddar» : Sym := .user 44
/-- prim.c:72 -/
abbrev «$cddddr» : Sym := .user 45
/-- prim.c:74 -/
abbrev «$set-car!» : Sym := .user 46
/-- prim.c:75 -/
abbrev «$set-cdr!» : Sym := .user 47
/-- prim.c:77 -/
abbrev «$make-list» : Sym := .user 48
/-- prim.c:78 -/
abbrev «$length» : Sym := .user 49
/-- prim.c:79 -/
abbrev «$reverse» : Sym := .user 50
/-- prim.c:80 -/
abbrev «$append2» : Sym := .user 51
/-- prim.c:82 -/
abbrev «vector?» : Sym := .user 52
/-- prim.c:83 -/
abbrev «$make-vector» : Sym := .user 53
/-- prim.c:84 -/
abbrev «$vector-length» : Sym := .user 54
/-- prim.c:85 -/
abbrev «$vector-ref» : Sym := .user 55
/-- prim.c:86 -/
abbrev «$vector-set!» : Sym := .user 56
/-- prim.c:87 -/
abbrev «$vector-fill!» : Sym := .user 57
/-- prim.c:88 -/
abbrev «$list->vector» : Sym := .user 58
/-- prim.c:89 -/
abbrev «$vector->list» : Sym := .user 59
/-- prim.c:91 -/
abbrev «fixnum?» : Sym := .user 60
/-- prim.c:92 -/
abbrev «$fxneg» : Sym := .user 61
/-- prim.c:93 -/
abbrev «$fx2+» : Sym := .user 62
/-- prim.c:94 -/
abbrev «$fx2-» : Sym := .user 63
/-- prim.c:95 -/
abbrev «$fx2*» : Sym := .user 64
/-- prim.c:96 -/
abbrev «$fx2/» : Sym := .user 65
/-- prim.c:97 -/
abbrev «$fxremainder» : Sym := .user 66
/-- prim.c:98 -/
abbrev «$fxmodulo» : Sym := .user 67
/-- prim.c:100 -/
abbrev «$fx2=» : Sym := .user 68
/-- prim.c:101 -/
abbrev «$fx2>» : Sym := .user 69
/-- prim.c:102 -/
abbrev «$fx2<» : Sym := .user 70
/-- prim.c:103 -/
abbrev «$fx2>=» : Sym := .user 71
/-- prim.c:104 -/
abbrev «$fx2<=» : Sym := .user 72
/-- prim.c:106 -/
abbrev «string?» : Sym := .user 73
/-- prim.c:107 -/
abbrev «$make-string» : Sym := .user 74
/-- prim.c:108 -/
abbrev «$string-length» : Sym := .user 75
/-- prim.c:109 -/
abbrev «$string-ref» : Sym := .user 76
/-- prim.c:110 -/
abbrev «$string-set!» : Sym := .user 77
/-- prim.c:111 -/
abbrev «$number->string» : Sym := .user 78
/-- prim.c:112 -/
abbrev «$string->number» : Sym := .user 79
/-- prim.c:113 -/
abbrev «$symbol->string» : Sym := .user 80
/-- prim.c:114 -/
abbrev «$string->symbol» : Sym := .user 81
/-- prim.c:115 -/
abbrev «$list->string» : Sym := .user 82
/-- prim.c:116 -/
abbrev «$string->list» : Sym := .user 83
/-- prim.c:118 -/
abbrev «record?» : Sym := .user 84
/-- prim.c:119 -/
abbrev «record-type-descriptor?» : Sym := .user 85
/-- prim.c:120 -/
abbrev «$make-record-type-descriptor» : Sym := .user 86
/-- prim.c:121 -/
abbrev «$record-type-name» : Sym := .user 87
/-- prim.c:122 -/
abbrev «$record-type-parent» : Sym := .user 88
/-- prim.c:123 -/
abbrev «$record-type-uid» : Sym := .user 89
/-- prim.c:124 -/
abbrev «$record-type-sealed?» : Sym := .user 90
/-- prim.c:125 -/
abbrev «$record-type-opaque?» : Sym := .user 91
/-- prim.c:126 -/
abbrev «$record-type-length» : Sym := .user 92
/-- prim.c:127 -/
abbrev «$record-type-field-names» : Sym := .user 93
/-- prim.c:128 -/
abbrev «$record-type-field-mutable?» : Sym := .user 94
/-- prim.c:130 -/
abbrev «$record-value?» : Sym := .user 95
/-- prim.c:131 -/
abbrev «$make-record» : Sym := .user 96
/-- prim.c:132 -/
abbrev «$record-rtd» : Sym := .user 97
/-- prim.c:133 -/
abbrev «$record-ref» : Sym := .user 98
/-- prim.c:134 -/
abbrev «$record-set!» : Sym := .user 99
/-- prim.c:136 -/
abbrev «$default-record-equal-procedure» : Sym := .user 100
/-- prim.c:137 -/
abbrev «$default-record-equal-procedure-set!» : Sym := .user 101
/-- prim.c:138 -/
abbrev «$default-record-hash-procedure» : Sym := .user 102
/-- prim.c:139 -/
abbrev «$default-record-hash-procedure-set!» : Sym := .user 103
/-- prim.c:141 -/
abbrev «box?» : Sym := .user 104
/-- prim.c:142 -/
abbrev «box» : Sym := .user 105
/-- prim.c:143 -/
abbrev «$unbox» : Sym := .user 106
/-- prim.c:144 -/
abbrev «$set-box!» : Sym := .user 107
/-- prim.c:146 -/
abbrev «$hashtable?» : Sym := .user 108
/-- prim.c:147 -/
abbrev «$make-hashtable» : Sym := .user 109
/-- prim.c:148 -/
abbrev «$hashtable-copy» : Sym := .user 110
/-- prim.c:149 -/
abbrev «$hashtable-cells» : Sym := .user 111
/-- prim.c:150 -/
abbrev «$hashtable-size» : Sym := .user 112
/-- prim.c:151 -/
abbrev «$hashtable-size-set!» : Sym := .user 113
/-- prim.c:152 -/
abbrev «$hashtable-length» : Sym := .user 114
/-- prim.c:153 -/
abbrev «$hashtable-ref» : Sym := .user 115
/-- prim.c:154 -/
abbrev «$hashtable-set!» : Sym := .user 116
/-- prim.c:155 -/
abbrev «$hashtable-clear!» : Sym := .user 117
/-- prim.c:157 -/
abbrev «eq?» : Sym := .user 118
/-- prim.c:158 -/
abbrev «$equal?» : Sym := .user 119
/-- prim.c:159 -/
abbrev «eq-hash» : Sym := .user 120
/-- prim.c:160 -/
abbrev «$equal-hash» : Sym := .user 121
/-- prim.c:162 -/
abbrev «syntax?» : Sym := .user 122
/-- prim.c:163 -/
abbrev «$syntax-e» : Sym := .user 123
/-- prim.c:164 -/
abbrev «$syntax-loc» : Sym := .user 124
/-- prim.c:165 -/
abbrev «datum->syntax» : Sym := .user 125
/-- prim.c:166 -/
abbrev «$syntax->datum» : Sym := .user 126
/-- prim.c:167 -/
abbrev «$syntax->list» : Sym := .user 127
/-- prim.c:169 -/
abbrev «environment?» : Sym := .user 128
/-- prim.c:170 -/
abbrev «make-empty-environment» : Sym := .user 129
/-- prim.c:171 -/
abbrev «make-base-environment» : Sym := .user 130
/-- prim.c:172 -/
abbrev «$copy-environment» : Sym := .user 131
/-- prim.c:173 -/
abbrev «$environment-symbols» : Sym := .user 132
/-- prim.c:174 -/
abbrev «$environment-ref» : Sym := .user 133
/-- prim.c:175 -/
abbrev «$environment-set!» : Sym := .user 134
/-- prim.c:176 -/
abbrev «$current-environment» : Sym := .user 135
/-- prim.c:177 -/
abbrev «$current-environment-set!» : Sym := .user 136
/-- prim.c:179 -/
abbrev «procedure?» : Sym := .user 137
/-- prim.c:180 -/
abbrev «$procedure-arity» : Sym := .user 138
/-- prim.c:181 -/
abbrev «$procedure-name» : Sym := .user 139
/-- prim.c:182 -/
abbrev «$procedure-rename» : Sym := .user 140
/-- prim.c:189 -/
abbrev «input-port?» : Sym := .user 141
/-- prim.c:190 -/
abbrev «output-port?» : Sym := .user 142
/-- prim.c:191 -/
abbrev «string-port?» : Sym := .user 143
/-- prim.c:192 -/
abbrev «current-input-port» : Sym := .user 144
/-- prim.c:193 -/
abbrev «current-output-port» : Sym := .user 145
/-- prim.c:194 -/
abbrev «current-error-port» : Sym := .user 146
/-- prim.c:195 -/
abbrev «$open-input-file» : Sym := .user 147
/-- prim.c:196 -/
abbrev «$open-output-file» : Sym := .user 148
/-- prim.c:197 -/
abbrev «$open-input-string» : Sym := .user 149
/-- prim.c:198 -/
abbrev «open-output-string» : Sym := .user 150
/-- prim.c:199 -/
abbrev «$close-input-port» : Sym := .user 151
/-- prim.c:200 -/
abbrev «$close-output-port» : Sym := .user 152
/-- prim.c:201 -/
abbrev «$get-output-string» : Sym := .user 153
/-- prim.c:203 -/
abbrev «$read» : Sym := .user 154
/-- prim.c:204 -/
abbrev «$read-char» : Sym := .user 155
/-- prim.c:205 -/
abbrev «$peek-char» : Sym := .user 156
/-- prim.c:206 -/
abbrev «$char-ready?» : Sym := .user 157
/-- prim.c:207 -/
abbrev «$put-char» : Sym := .user 158
/-- prim.c:208 -/
abbrev «$put-string» : Sym := .user 159
/-- prim.c:209 -/
abbrev «$flush-output-port» : Sym := .user 160
/-- prim.c:210 -/
abbrev «$newline» : Sym := .user 161
/-- prim.c:212 -/
abbrev «$fasl-read» : Sym := .user 162
/-- prim.c:213 -/
abbrev «$fasl-write» : Sym := .user 163
/-- prim.c:216 -/
abbrev «$load» : Sym := .user 164
/-- prim.c:217 -/
abbrev «$exit» : Sym := .user 165
/-- prim.c:218 -/
abbrev «version» : Sym := .user 166
/-- prim.c:219 -/
abbrev «command-line» : Sym := .user 167
/-- prim.c:220 -/
abbrev «$current-directory» : Sym := .user 168
/-- prim.c:221 -/
abbrev «$current-directory-set!» : Sym := .user 169
/-- prim.c:224 -/
abbrev «$c-error-handler» : Sym := .user 170
/-- prim.c:225 -/
abbrev «$current-error-handler» : Sym := .user 171
/-- prim.c:226 -/
abbrev «$current-error-handler-set!» : Sym := .user 172
/-- prim.c:227 -/
abbrev «$boot-error» : Sym := .user 173
/-- prim.c:184 -/
abbrev «identity» : Sym := .user 174
/-- prim.c:185 -/
abbrev «apply» : Sym := .user 175
/-- prim.c:187 -/
abbrev «void» : Sym := .user 176
/-- prim.c:215 -/
abbrev «eval» : Sym := .user 177
/-- prim.c:228 -/
abbrev «raise» : Sym := .user 178
/-- prelude.min:6 -/
abbrev «error» : Sym := .user 179
/-- prelude.min:10 -/
abbrev «errorf» : Sym := .user 180
/-- prelude.min:14 -/
abbrev «raise-argument-error» : Sym := .user 181
/-- prelude.min:18 -/
abbrev «raise-arity-error» : Sym := .user 182
/-- prelude.min:22 -/
abbrev «raise-range-error» : Sym := .user 183
/-- prelude.min:26 -/
abbrev «raise-missing-error» : Sym := .user 184
/-- prelude.min:37 -/
abbrev «car» : Sym := .user 185
/-- prelude.min:43 -/
abbrev «cdr» : Sym := .user 186
/-- prelude.min:49 -/
abbrev «caar» : Sym := .user 187
/-- prelude.min:61 -/
abbrev «cadr» : Sym := .user 188
/-- prelude.min:73 -/
abbrev «cdar» : Sym := .user 189
/-- prelude.min:85 -/
abbrev «cddr» : Sym := .user 190
/-- prelude.min:97 -/
abbrev «caaar» : Sym := .user 191
/-- prelude.min:112 -/
abbrev «caadr» : Sym := .user 192
/-- prelude.min:127 -/
abbrev «cadar» : Sym := .user 193
/-- prelude.min:142 -/
abbrev «caddr» : Sym := .user 194
/-- prelude.min:157 -/
abbrev «cdaar» : Sym := .user 195
/-- prelude.min:172 -/
abbrev «cdadr» : Sym := .user 196
/-- prelude.min:187 -/
abbrev «cddar» : Sym := .user 197
/-- prelude.min:202 -/
abbrev «cdddr» : Sym := .user 198
/-- prelude.min:217 -/
abbrev «caaaar» : Sym := .user 199
/-- prelude.min:235 -/
abbrev «caaadr» : Sym := .user 200
/-- prelude.min:253 -/
abbrev «caadar» : Sym := .user 201
/-- prelude.min:271 -/
abbrev «caaddr» : Sym := .user 202
/-- prelude.min:289 -/
abbrev «cadaar» : Sym := .user 203
/-- prelude.min:307 -/
abbrev «cadadr» : Sym := .user 204
/-- prelude.min:325 -/
abbrev «caddar» : Sym := .user 205
/-- prelude.min:343 -/
abbrev «cadddr» : Sym := .user 206
/-- prelude.min:361 -/
abbrev «cdaaar» : Sym := .user 207
/-- prelude.min:379 -/
abbrev «cdaadr» : Sym := .user 208
/-- prelude.min:397 -/
abbrev «cdadar» : Sym := .user 209
/-- prelude.min:415 -/
abbrev «cdaddr» : Sym := .user 210
/-- prelude.min:433 -/
abbrev «cddaar» : Sym := .user 211
/-- prelude.min:451 -/
abbrev «cddadr» : Sym := .user 212
/-- prelude.min:469 -/
abbrev «cdddar» : Sym := .user 213
/-- prelude.min:487 -/
abbrev «cddddr» : Sym := .user 214
/-- prelude.min:505 -/
abbrev «set-car!» : Sym := .user 215
/-- prelude.min:511 -/
abbrev «set-cdr!» : Sym := .user 216
/-- prelude.min:521 -/
abbrev «integer?» : Sym := .user 217
/-- prelude.min:522 -/
abbrev «number?» : Sym := .user 218
/-- prelude.min:524 -/
abbrev «=» : Sym := .user 219
/-- prelude.min:524 -/
abbrev «>» : Sym := .user 220
/-- prelude.min:524 -/
abbrev «<» : Sym := .user 221
/-- prelude.min:524 -/
abbrev «>=» : Sym := .user 222
/-- prelude.min:524 -/
abbrev «<=» : Sym := .user 223
/-- prelude.min:560 -/
abbrev «negative-integer?» : Sym := .user 224
/-- prelude.min:563 -/
abbrev «non-negative-integer?» : Sym := .user 225
/-- prelude.min:566 -/
abbrev «positive-integer?» : Sym := .user 226
/-- prelude.min:569 -/
abbrev «zero?» : Sym := .user 227
/-- prelude.min:573 -/
abbrev «negative?» : Sym := .user 228
/-- prelude.min:574 -/
abbrev «non-negative?» : Sym := .user 229
/-- prelude.min:575 -/
abbrev «positive?» : Sym := .user 230
/-- prelude.min:577 -/
abbrev «+» : Sym := .user 231
/-- prelude.min:577 -/
abbrev «-» : Sym := .user 232
/-- prelude.min:577 -/
abbrev «*» : Sym := .user 233
/-- prelude.min:577 -/
abbrev «/» : Sym := .user 234
/-- prelude.min:696 -/
abbrev «add1» : Sym := .user 235
/-- prelude.min:702 -/
abbrev «sub1» : Sym := .user 236
/-- prelude.min:708 -/
abbrev «remainder» : Sym := .user 237
/-- prelude.min:716 -/
abbrev «modulo» : Sym := .user 238
/-- prelude.min:731 -/
abbrev «procedure-arity?» : Sym := .user 239
/-- prelude.min:754 -/
abbrev «procedure-arity» : Sym := .user 240
/-- prelude.min:760 -/
abbrev «procedure-name» : Sym := .user 241
/-- prelude.min:766 -/
abbrev «procedure-rename» : Sym := .user 242
/-- prelude.min:777 -/
abbrev «char->integer» : Sym := .user 243
/-- prelude.min:783 -/
abbrev «integer->char» : Sym := .user 244
/-- prelude.min:792 -/
abbrev «string» : Sym := .user 245
/-- prelude.min:792 -/
abbrev «list->string» : Sym := .user 246
/-- prelude.min:808 -/
abbrev «make-string» : Sym := .user 247
/-- prelude.min:824 -/
abbrev «string-length» : Sym := .user 248
/-- prelude.min:830 -/
abbrev «string-ref» : Sym := .user 249
/-- prelude.min:840 -/
abbrev «string-set!» : Sym := .user 250
/-- prelude.min:852 -/
abbrev «string-append» : Sym := .user 251
/-- prelude.min:888 -/
abbrev «number->string» : Sym := .user 252
/-- prelude.min:894 -/
abbrev «string->number» : Sym := .user 253
/-- prelude.min:900 -/
abbrev «symbol->string» : Sym := .user 254
/-- prelude.min:906 -/
abbrev «string->symbol» : Sym := .user 255
/-- prelude.min:912 -/
abbrev «string->list» : Sym := .user 256
/-- prelude.min:921 -/
abbrev «list» : Sym := .user 257
/-- prelude.min:923 -/
abbrev «make-list» : Sym := .user 258
/-- prelude.min:929 -/
abbrev «length» : Sym := .user 259
/-- prelude.min:935 -/
abbrev «reverse» : Sym := .user 260
/-- prelude.min:941 -/
abbrev «append» : Sym := .user 261
/-- prelude.min:967 -/
abbrev «for-each» : Sym := .user 262
/-- prelude.min:967 -/
abbrev «map» : Sym := .user 263
/-- prelude.min:967 -/
abbrev «andmap» : Sym := .user 264
/-- prelude.min:967 -/
abbrev «ormap» : Sym := .user 265
/-- prelude.min:1075 -/
abbrev «iota» : Sym := .user 266
/-- prelude.min:1088 -/
abbrev «enumerate» : Sym := .user 267
/-- prelude.min:1104 -/
abbrev «vector» : Sym := .user 268
/-- prelude.min:1107 -/
abbrev «make-vector» : Sym := .user 269
/-- prelude.min:1121 -/
abbrev «vector-length» : Sym := .user 270
/-- prelude.min:1127 -/
abbrev «vector-ref» : Sym := .user 271
/-- prelude.min:1137 -/
abbrev «vector-set!» : Sym := .user 272
/-- prelude.min:1147 -/
abbrev «vector-fill!» : Sym := .user 273
/-- prelude.min:1153 -/
abbrev «list->vector» : Sym := .user 274
/-- prelude.min:1159 -/
abbrev «vector->list» : Sym := .user 275
/-- prelude.min:1168 -/
abbrev «unbox» : Sym := .user 276
/-- prelude.min:1174 -/
abbrev «set-box!» : Sym := .user 277
/-- prelude.min:1183 -/
abbrev «open-input-file» : Sym := .user 278
/-- prelude.min:1189 -/
abbrev «open-output-file» : Sym := .user 279
/-- prelude.min:1195 -/
abbrev «open-input-string» : Sym := .user 280
/-- prelude.min:1201 -/
abbrev «close-input-port» : Sym := .user 281
/-- prelude.min:1207 -/
abbrev «close-output-port» : Sym := .user 282
/-- prelude.min:1213 -/
abbrev «get-output-string» : Sym := .user 283
/-- prelude.min:1222 -/
abbrev «make-record-type-descriptor» : Sym := .user 284
/-- prelude.min:1323 -/
abbrev «record-type-name» : Sym := .user 285
/-- prelude.min:1323 -/
abbrev «record-type-parent» : Sym := .user 286
/-- prelude.min:1323 -/
abbrev «record-type-uid» : Sym := .user 287
/-- prelude.min:1323 -/
abbrev «record-type-sealed?» : Sym := .user 288
/-- prelude.min:1323 -/
abbrev «record-type-opaque?» : Sym := .user 289
/-- prelude.min:1323 -/
abbrev «record-type-field-names» : Sym := .user 290
/-- prelude.min:1343 -/
abbrev «record-type-field-mutable?» : Sym := .user 291
/-- prelude.min:1354 -/
abbrev «record-rtd» : Sym := .user 292
/-- prelude.min:1354 -/
abbrev «record-constructor» : Sym := .user 293
/-- prelude.min:1354 -/
abbrev «record-predicate» : Sym := .user 294
/-- prelude.min:1354 -/
abbrev «record-accessor» : Sym := .user 295
/-- prelude.min:1354 -/
abbrev «record-mutator» : Sym := .user 296
/-- prelude.min:1454 -/
abbrev «make-custom-hashtable» : Sym := .user 297
/-- prelude.min:1454 -/
abbrev «hashtable?» : Sym := .user 298
/-- prelude.min:1454 -/
abbrev «$hashtable-store» : Sym := .user 299
/-- prelude.min:1454 -/
abbrev «$hashtable-store-set!» : Sym := .user 300
/-- prelude.min:1454 -/
abbrev «hashtable-hash-proc» : Sym := .user 301
/-- prelude.min:1454 -/
abbrev «hashtable-equiv-proc» : Sym := .user 302
/-- prelude.min:1454 -/
abbrev «hashtable-copy» : Sym := .user 303
/-- prelude.min:1481 -/
abbrev «make-eq-hashtable» : Sym := .user 304
/-- prelude.min:1481 -/
abbrev «make-hashtable» : Sym := .user 305
/-- prelude.min:1485 -/
abbrev «hashtable-size» : Sym := .user 306
/-- prelude.min:1491 -/
abbrev «hashtable-entries» : Sym := .user 307
/-- prelude.min:1491 -/
abbrev «hashtable-keys» : Sym := .user 308
/-- prelude.min:1491 -/
abbrev «hashtable-vals» : Sym := .user 309
/-- prelude.min:1541 -/
abbrev «hashtable-contains?» : Sym := .user 310
/-- prelude.min:1541 -/
abbrev «hashtable-ref» : Sym := .user 311
/-- prelude.min:1541 -/
abbrev «hashtable-set!» : Sym := .user 312
/-- prelude.min:1541 -/
abbrev «hashtable-update!» : Sym := .user 313
/-- prelude.min:1541 -/
abbrev «hashtable-delete!» : Sym := .user 314
/-- prelude.min:1712 -/
abbrev «hashtable-clear!» : Sym := .user 315
/-- prelude.min:1722 -/
abbrev «default-record-equal-procedure» : Sym := .user 316
/-- prelude.min:1733 -/
abbrev «default-record-hash-procedure» : Sym := .user 317
/-- prelude.min:1743 -/
abbrev «record-type-equal-procedure» : Sym := .user 318
/-- prelude.min:1743 -/
abbrev «record-type-hash-procedure» : Sym := .user 319
/-- prelude.min:1792 -/
abbrev «record-equal-procedure» : Sym := .user 320
/-- prelude.min:1807 -/
abbrev «record-hash-procedure» : Sym := .user 321
/-- prelude.min:1814 -/
abbrev «record-writer» : Sym := .user 322
/-- prelude.min:1837 -/
abbrev «equal?» : Sym := .user 323
/-- prelude.min:1899 -/
abbrev «equal-hash» : Sym := .user 324
/-- prelude.min:1939 -/
abbrev «read» : Sym := .user 325
/-- prelude.min:1939 -/
abbrev «read-char» : Sym := .user 326
/-- prelude.min:1939 -/
abbrev «peek-char» : Sym := .user 327
/-- prelude.min:1939 -/
abbrev «char-ready?» : Sym := .user 328
/-- prelude.min:1957 -/
abbrev «put-char» : Sym := .user 329
/-- prelude.min:1965 -/
abbrev «put-string» : Sym := .user 330
/-- prelude.min:2009 -/
abbrev «flush-output-port» : Sym := .user 331
/-- prelude.min:2015 -/
abbrev «write-char» : Sym := .user 332
/-- prelude.min:2028 -/
abbrev «put-datum» : Sym := .user 333
/-- prelude.min:2028 -/
abbrev «write» : Sym := .user 334
/-- prelude.min:2028 -/
abbrev «display» : Sym := .user 335
/-- prelude.min:2160 -/
abbrev «newline» : Sym := .user 336
/-- prelude.min:2172 -/
abbrev «fprintf» : Sym := .user 337
/-- prelude.min:2172 -/
abbrev «printf» : Sym := .user 338
/-- prelude.min:2172 -/
abbrev «eprintf» : Sym := .user 339
/-- prelude.min:2172 -/
abbrev «format» : Sym := .user 340
/-- prelude.min:2265 -/
abbrev «fasl-read» : Sym := .user 341
/-- prelude.min:2271 -/
abbrev «fasl-write» : Sym := .user 342
/-- prelude.min:2280 -/
abbrev «syntax-e» : Sym := .user 343
/-- prelude.min:2286 -/
abbrev «syntax-loc» : Sym := .user 344
/-- prelude.min:2292 -/
abbrev «syntax->datum» : Sym := .user 345
/-- prelude.min:2298 -/
abbrev «syntax->list» : Sym := .user 346
/-- prelude.min:2307 -/
abbrev «make-pattern-variable» : Sym := .user 347
/-- prelude.min:2307 -/
abbrev «pattern-variable?» : Sym := .user 348
/-- prelude.min:2307 -/
abbrev «pattern-variable-value» : Sym := .user 349
/-- prelude.min:2307 -/
abbrev «pattern-variable-depth» : Sym := .user 350
/-- prelude.min:2330 -/
abbrev «copy-environment» : Sym := .user 351
/-- prelude.min:2345 -/
abbrev «environment-symbols» : Sym := .user 352
/-- prelude.min:2351 -/
abbrev «environment-ref» : Sym := .user 353
/-- prelude.min:2373 -/
abbrev «environment-set!» : Sym := .user 354
/-- prelude.min:2381 -/
abbrev «current-environment» : Sym := .user 355
/-- prelude.min:2392 -/
abbrev «load» : Sym := .user 356
/-- prelude.min:2398 -/
abbrev «exit» : Sym := .user 357
/-- prelude.min:2407 -/
abbrev «current-directory» : Sym := .user 358
/-- prelude.min:2420 -/
abbrev «current-error-handler» : Sym := .user 359
/-- prelude.min:2430 -/
abbrev «&exn» : Sym := .user 360
/-- prelude.min:2430 -/
abbrev «make-exn» : Sym := .user 361
/-- prelude.min:2430 -/
abbrev «exn?» : Sym := .user 362
/-- prelude.min:2430 -/
abbrev «exn-who» : Sym := .user 363
/-- prelude.min:2430 -/
abbrev «exn-message» : Sym := .user 364
/-- prelude.min:2439 -/
abbrev «&argument» : Sym := .user 365
/-- prelude.min:2439 -/
abbrev «make-argument-exn» : Sym := .user 366
/-- prelude.min:2439 -/
abbrev «argument-exn?» : Sym := .user 367
/-- prelude.min:2439 -/
abbrev «argument-exn-expect» : Sym := .user 368
/-- prelude.min:2439 -/
abbrev «argument-exn-actual» : Sym := .user 369
/-- prelude.min:2448 -/
abbrev «&arity» : Sym := .user 370
/-- prelude.min:2448 -/
abbrev «make-arity-exn» : Sym := .user 371
/-- prelude.min:2448 -/
abbrev «arity-exn?» : Sym := .user 372
/-- prelude.min:2448 -/
abbrev «arity-exn-expect» : Sym := .user 373
/-- prelude.min:2448 -/
abbrev «arity-exn-actual» : Sym := .user 374
/-- prelude.min:2457 -/
abbrev «&range» : Sym := .user 375
/-- prelude.min:2457 -/
abbrev «make-range-exn» : Sym := .user 376
/-- prelude.min:2457 -/
abbrev «range-exn?» : Sym := .user 377
/-- prelude.min:2457 -/
abbrev «range-exn-value» : Sym := .user 378
/-- prelude.min:2457 -/
abbrev «range-exn-description» : Sym := .user 379
/-- prelude.min:2457 -/
abbrev «range-exn-lower» : Sym := .user 380
/-- prelude.min:2457 -/
abbrev «range-exn-upper» : Sym := .user 381
/-- prelude.min:2457 -/
abbrev «range-exn-index» : Sym := .user 382
/-- prelude.min:2469 -/
abbrev «&missing» : Sym := .user 383
/-- prelude.min:2469 -/
abbrev «make-missing-exn» : Sym := .user 384
/-- prelude.min:2469 -/
abbrev «missing-exn?» : Sym := .user 385
/-- prelude.min:2469 -/
abbrev «missing-exn-description» : Sym := .user 386
/-- prelude.min:2469 -/
abbrev «missing-exn-value» : Sym := .user 387
/-- prelude.min:2469 -/
abbrev «missing-exn-key» : Sym := .user 388
/-- prelude.min:2479 -/
abbrev «&syntax» : Sym := .user 389
/-- prelude.min:2479 -/
abbrev «make-syntax-exn» : Sym := .user 390
/-- prelude.min:2479 -/
abbrev «syntax-exn?» : Sym := .user 391
/-- prelude.min:2479 -/
abbrev «syntax-exn-form» : Sym := .user 392
/-- prelude.min:2479 -/
abbrev «syntax-exn-subform» : Sym := .user 393
/-- prelude.min:2488 -/
abbrev «default-error-handler» : Sym := .user 394
/-- prelude.min:2624 -/
abbrev «raise-syntax-error» : Sym := .user 395
/-- boot.min:1 -/
abbrev «cons*» : Sym := .user 396
/-- boot.min:2 -/
abbrev «first» : Sym := .user 397
/-- boot.min:3 -/
abbrev «second» : Sym := .user 398
/-- boot.min:4 -/
abbrev «third» : Sym := .user 399
/-- boot.min:5 -/
abbrev «fourth» : Sym := .user 400
/-- boot.min:6 -/
abbrev «fifth» : Sym := .user 401
/-- boot.min:7 -/
abbrev «sixth» : Sym := .user 402
/-- boot.min:8 -/
abbrev «seventh» : Sym := .user 403
/-- boot.min:9 -/
abbrev «eighth» : Sym := .user 404
/-- boot.min:10 -/
abbrev «ninth» : Sym := .user 405
/-- boot.min:11 -/
abbrev «tenth» : Sym := .user 406
/-- boot.min:12 -/
abbrev «list-ref» : Sym := .user 407
/-- boot.min:13 -/
abbrev «member» : Sym := .user 408
/-- boot.min:14 -/
abbrev «remove» : Sym := .user 409
/-- boot.min:15 -/
abbrev «remove*» : Sym := .user 410
/-- boot.min:16 -/
abbrev «filter» : Sym := .user 411
/-- boot.min:17 -/
abbrev «foldl» : Sym := .user 412
/-- boot.min:18 -/
abbrev «foldr» : Sym := .user 413
/-- boot.min:19 -/
abbrev «assoc» : Sym := .user 414
/-- boot.min:20 -/
abbrev «index-of» : Sym := .user 415
/-- boot.min:21 -/
abbrev «list-set» : Sym := .user 416
/-- boot.min:22 -/
abbrev «is-absolute-path?» : Sym := .user 417
/-- boot.min:23 -/
abbrev «build-path» : Sym := .user 418
/-- boot.min:24 -/
abbrev «split-path» : Sym := .user 419
/-- boot.min:25 -/
abbrev «path->list» : Sym := .user 420
/-- boot.min:26 -/
abbrev «$generics-type» : Sym := .user 421
/-- boot.min:27 -/
abbrev «$generics-type?» : Sym := .user 422
/-- boot.min:28 -/
abbrev «$make-generics-type» : Sym := .user 423
/-- boot.min:29 -/
abbrev «$generics-type-name» : Sym := .user 424
/-- boot.min:30 -/
abbrev «$generics-type-methods» : Sym := .user 425
/-- boot.min:31 -/
abbrev «non-generics-type-error» : Sym := .user 426
/-- boot.min:32 -/
abbrev «non-rtd-error» : Sym := .user 427
/-- boot.min:33 -/
abbrev «$generics-type-method-names» : Sym := .user 428
/-- boot.min:34 -/
abbrev «$record-generics» : Sym := .user 429
/-- boot.min:35 -/
abbrev «record-type-add-generic!» : Sym := .user 430
/-- boot.min:36 -/
abbrev «generics-accessor» : Sym := .user 431
/-- boot.min:37 -/
abbrev «generic-instance?» : Sym := .user 432
/-- boot.min:38 -/
abbrev «gen:equal+hash» : Sym := .user 433
/-- boot.min:38 -/
abbrev «gen:equal+hash?» : Sym := .user 434
/-- boot.min:39 -/
abbrev «gen:custom-write» : Sym := .user 435
/-- boot.min:39 -/
abbrev «gen:custom-write?» : Sym := .user 436
/-- boot.min:40 -/
abbrev «set» : Sym := .user 437
/-- boot.min:41 -/
abbrev «make-set» : Sym := .user 438
/-- boot.min:42 -/
abbrev «set?» : Sym := .user 439
/-- boot.min:43 -/
abbrev «set-store» : Sym := .user 440
/-- boot.min:44 -/
abbrev «not-set-error» : Sym := .user 441
/-- boot.min:45 -/
abbrev «set-member?» : Sym := .user 442
/-- boot.min:46 -/
abbrev «set-empty?» : Sym := .user 443
/-- boot.min:47 -/
abbrev «set-count» : Sym := .user 444
/-- boot.min:48 -/
abbrev «set-copy» : Sym := .user 445
/-- boot.min:49 -/
abbrev «set-add!» : Sym := .user 446
/-- boot.min:50 -/
abbrev «set-remove!» : Sym := .user 447
/-- boot.min:51 -/
abbrev «set-clear!» : Sym := .user 448
/-- boot.min:52 -/
abbrev «set->list» : Sym := .user 449
/-- boot.min:53 -/
abbrev «subset?» : Sym := .user 450
/-- boot.min:54 -/
abbrev «proper-subset?» : Sym := .user 451
/-- boot.min:55 -/
abbrev «set=?» : Sym := .user 452
/-- boot.min:56 -/
abbrev «set-map» : Sym := .user 453
/-- boot.min:57 -/
abbrev «set-for-each» : Sym := .user 454
/-- boot.min:58 -/
abbrev «set-union» : Sym := .user 455
/-- boot.min:59 -/
abbrev «set-intersect» : Sym := .user 456
/-- boot.min:60 -/
abbrev «set-subtract» : Sym := .user 457
/-- boot.min:61 -/
abbrev «set-symmetric-difference» : Sym := .user 458
/-- boot.min:62 -/
abbrev «substring» : Sym := .user 459
/-- boot.min:63 -/
abbrev «identifier?» : Sym := .user 460
/-- boot.min:64 -/
abbrev «free-identifier=?» : Sym := .user 461
/-- boot.min:65 -/
abbrev «stx-null?» : Sym := .user 462
/-- boot.min:66 -/
abbrev «stx-pair?» : Sym := .user 463
/-- boot.min:67 -/
abbrev «stx-list?» : Sym := .user 464
/-- boot.min:68 -/
abbrev «stx-vector?» : Sym := .user 465
/-- boot.min:69 -/
abbrev «stx-car» : Sym := .user 466
/-- boot.min:70 -/
abbrev «stx-cdr» : Sym := .user 467
/-- boot.min:71 -/
abbrev «stx-vector-ref» : Sym := .user 468
/-- boot.min:72 -/
abbrev «stx-null/#f» : Sym := .user 469
/-- boot.min:73 -/
abbrev «cons/#f» : Sym := .user 470
/-- boot.min:74 -/
abbrev «append/#f» : Sym := .user 471
/-- boot.min:75 -/
abbrev «map/#f» : Sym := .user 472
/-- boot.min:76 -/
abbrev «stx->list» : Sym := .user 473
/-- boot.min:77 -/
abbrev «split-stx-list» : Sym := .user 474
/-- boot.min:78 -/
abbrev «scope» : Sym := .user 475
/-- boot.min:79 -/
abbrev «make-scope» : Sym := .user 476
/-- boot.min:80 -/
abbrev «scope?» : Sym := .user 477
/-- boot.min:81 -/
abbrev «scope-bound» : Sym := .user 478
/-- boot.min:82 -/
abbrev «scope-prev» : Sym := .user 479
/-- boot.min:83 -/
abbrev «scope-bound-set!» : Sym := .user 480
/-- boot.min:84 -/
abbrev «scope-prev-set!» : Sym := .user 481
/-- boot.min:85 -/
abbrev «make-base-scope» : Sym := .user 482
/-- boot.min:86 -/
abbrev «scope-extend» : Sym := .user 483
/-- boot.min:87 -/
abbrev «scope-add!» : Sym := .user 484
/-- boot.min:88 -/
abbrev «scope-names» : Sym := .user 485
/-- boot.min:89 -/
abbrev «scope-contains?» : Sym := .user 486
/-- boot.min:90 -/
abbrev «$base-env» : Sym := .user 487
/-- boot.min:91 -/
abbrev «$base-scope» : Sym := .user 488
/-- boot.min:92 -/
abbrev «lookup-xform» : Sym := .user 489
/-- boot.min:93 -/
abbrev «merge-xforms» : Sym := .user 490
/-- boot.min:94 -/
abbrev «_-form?» : Sym := .user 491
/-- boot.min:95 -/
abbrev «define-values-form?» : Sym := .user 492
/-- boot.min:96 -/
abbrev «define-syntaxes-form?» : Sym := .user 493
/-- boot.min:97 -/
abbrev «let-values-form?» : Sym := .user 494
/-- boot.min:98 -/
abbrev «letrec-values-form?» : Sym := .user 495
/-- boot.min:99 -/
abbrev «let-syntaxes-form?» : Sym := .user 496
/-- boot.min:100 -/
abbrev «set!-form?» : Sym := .user 497
/-- boot.min:101 -/
abbrev «quote-form?» : Sym := .user 498
/-- boot.min:102 -/
abbrev «quote-syntax-form?» : Sym := .user 499
/-- boot.min:103 -/
abbrev «lambda-form?» : Sym := .user 500
/-- boot.min:104 -/
abbrev «case-lambda-form?» : Sym := .user 501
/-- boot.min:105 -/
abbrev «begin-form?» : Sym := .user 502
/-- boot.min:106 -/
abbrev «if-form?» : Sym := .user 503
/-- boot.min:107 -/
abbrev «stx-self-evaluating?» : Sym := .user 504
/-- boot.min:108 -/
abbrev «duplicate-identifier» : Sym := .user 505
/-- boot.min:109 -/
abbrev «check-define-syntaxes/values-form!» : Sym := .user 506
/-- boot.min:110 -/
abbrev «check-let-syntaxes/values-form!» : Sym := .user 507
/-- boot.min:111 -/
abbrev «check-set!-form!» : Sym := .user 508
/-- boot.min:112 -/
abbrev «check-lambda-form!» : Sym := .user 509
/-- boot.min:113 -/
abbrev «check-case-lambda-form!» : Sym := .user 510
/-- boot.min:114 -/
abbrev «check-begin-form!» : Sym := .user 511
/-- boot.min:115 -/
abbrev «check-1ary-form!» : Sym := .user 512
/-- boot.min:116 -/
abbrev «check-if-form!» : Sym := .user 513
/-- boot.min:117 -/
abbrev «check-duplicate-identifier!» : Sym := .user 514
/-- boot.min:118 -/
abbrev «$expander-pattern-vars» : Sym := .user 515
/-- boot.min:119 -/
abbrev «$base-stx-env» : Sym := .user 516
/-- boot.min:120 -/
abbrev «define-syntaxes/values-identifiers» : Sym := .user 517
/-- boot.min:121 -/
abbrev «define-syntaxes/values-expr» : Sym := .user 518
/-- boot.min:122 -/
abbrev «check/module!» : Sym := .user 519
/-- boot.min:123 -/
abbrev «expand/module» : Sym := .user 520
/-- boot.min:124 -/
abbrev «expand» : Sym := .user 521
/-- boot.min:125 -/
abbrev «writeln» : Sym := .user 522
/-- boot.min:126 -/
abbrev «$module-table» : Sym := .user 523
/-- boot.min:127 -/
abbrev «$module-envs» : Sym := .user 524
/-- boot.min:128 -/
abbrev «$module-internals» : Sym := .user 525
/-- boot.min:129 -/
abbrev «$load-module» : Sym := .user 526
/-- boot.min:130 -/
abbrev «$eval-environment» : Sym := .user 527
/-- boot.min:131 -/
abbrev «$eval-exprs» : Sym := .user 528
/-- boot.min:132 -/
abbrev «$load-or-import-no-check» : Sym := .user 529
/-- boot.min:133 -/
abbrev «$repl» : Sym := .user 530
/-- boot.min:134 -/
abbrev «$load-or-import» : Sym := .user 531
/-- boot.min:135 -/
abbrev «read/module» : Sym := .user 532
/-- boot.min:136 -/
abbrev «import» : Sym := .user 533
/-- boot.min:138 -/
abbrev «enter!» : Sym := .user 534
/-- the name of no global -/
abbrev «who» : Sym := .user 535
/-- the name of no global -/
abbrev «msg» : Sym := .user 536
/-- the name of no global -/
abbrev «args» : Sym := .user 537
/-- the name of no global -/
abbrev «fmt» : Sym := .user 538
/-- the name of no global -/
abbrev «expected» : Sym := .user 539
/-- the name of no global -/
abbrev «v» : Sym := .user 540
/-- the name of no global -/
abbrev «arity» : Sym := .user 541
/-- the name of no global -/
abbrev «cnt» : Sym := .user 542
/-- the name of no global -/
abbrev «descr» : Sym := .user 543
/-- the name of no global -/
abbrev «lower» : Sym := .user 544
/-- the name of no global -/
abbrev «upper» : Sym := .user 545
/-- the name of no global -/
abbrev «index» : Sym := .user 546
/-- the name of no global -/
abbrev «x» : Sym := .user 547
/-- the name of no global -/
abbrev «k» : Sym := .user 548
/-- the name of no global -/
abbrev «oops!» : Sym := .user 549
/-- the name of no global -/
abbrev «t» : Sym := .user 550
/-- the name of no global -/
abbrev «p» : Sym := .user 551
/-- the name of no global -/
abbrev «non-number-error» : Sym := .user 552
/-- the name of no global -/
abbrev «go» : Sym := .user 553
/-- the name of no global -/
abbrev «cmp» : Sym := .user 554
/-- the name of no global -/
abbrev «y» : Sym := .user 555
/-- the name of no global -/
abbrev «rest» : Sym := .user 556
/-- the name of no global -/
abbrev «loop» : Sym := .user 557
/-- the name of no global -/
abbrev «xs» : Sym := .user 558
/-- the name of no global -/
abbrev «divide-0-error» : Sym := .user 559
/-- the name of no global -/
abbrev «division-0-error» : Sym := .user 560
/-- the name of no global -/
abbrev «producer» : Sym := .user 561
/-- the name of no global -/
abbrev «consumer» : Sym := .user 562
/-- the name of no global -/
abbrev «id» : Sym := .user 563
/-- the name of no global -/
abbrev «check-arg!» : Sym := .user 564
/-- the name of no global -/
abbrev «check-args!» : Sym := .user 565
/-- the name of no global -/
abbrev «n» : Sym := .user 566
/-- the name of no global -/
abbrev «c» : Sym := .user 567
/-- the name of no global -/
abbrev «init» : Sym := .user 568
/-- the name of no global -/
abbrev «len» : Sym := .user 569
/-- the name of no global -/
abbrev «fill» : Sym := .user 570
/-- the name of no global -/
abbrev «s» : Sym := .user 571
/-- the name of no global -/
abbrev «idx» : Sym := .user 572
/-- the name of no global -/
abbrev «sum-lengths» : Sym := .user 573
/-- the name of no global -/
abbrev «i» : Sym := .user 574
/-- the name of no global -/
abbrev «j» : Sym := .user 575
/-- the name of no global -/
abbrev «non-list-error» : Sym := .user 576
/-- the name of no global -/
abbrev «ys» : Sym := .user 577
/-- the name of no global -/
abbrev «xss» : Sym := .user 578
/-- the name of no global -/
abbrev «acc» : Sym := .user 579
/-- the name of no global -/
abbrev «for-each1» : Sym := .user 580
/-- the name of no global -/
abbrev «f» : Sym := .user 581
/-- the name of no global -/
abbrev «map1» : Sym := .user 582
/-- the name of no global -/
abbrev «andmap1» : Sym := .user 583
/-- the name of no global -/
abbrev «pred?» : Sym := .user 584
/-- the name of no global -/
abbrev «ormap1» : Sym := .user 585
/-- the name of no global -/
abbrev «prev-len» : Sym := .user 586
/-- the name of no global -/
abbrev «check-length!» : Sym := .user 587
/-- the name of no global -/
abbrev «name» : Sym := .user 588
/-- the name of no global -/
abbrev «str» : Sym := .user 589
/-- the name of no global -/
abbrev «port» : Sym := .user 590
/-- the name of no global -/
abbrev «close-input-file» : Sym := .user 591
/-- the name of no global -/
abbrev «close-output-file» : Sym := .user 592
/-- the name of no global -/
abbrev «field-id» : Sym := .user 593
/-- the name of no global -/
abbrev «field» : Sym := .user 594
/-- the name of no global -/
abbrev «type» : Sym := .user 595
/-- the name of no global -/
abbrev «rib» : Sym := .user 596
/-- the name of no global -/
abbrev «immutable» : Sym := .user 597
/-- the name of no global -/
abbrev «mutable» : Sym := .user 598
/-- the name of no global -/
abbrev «parent» : Sym := .user 599
/-- the name of no global -/
abbrev «uid» : Sym := .user 600
/-- the name of no global -/
abbrev «sealed?» : Sym := .user 601
/-- the name of no global -/
abbrev «opaque?» : Sym := .user 602
/-- the name of no global -/
abbrev «fields» : Sym := .user 603
/-- the name of no global -/
abbrev «check-fields!» : Sym := .user 604
/-- the name of no global -/
abbrev «ids» : Sym := .user 605
/-- the name of no global -/
abbrev «maybe-id» : Sym := .user 606
/-- the name of no global -/
abbrev «rtd» : Sym := .user 607
/-- the name of no global -/
abbrev «rec-equal?» : Sym := .user 608
/-- the name of no global -/
abbrev «rec-hash» : Sym := .user 609
/-- the name of no global -/
abbrev «rec-writer» : Sym := .user 610
/-- the name of no global -/
abbrev «make-accessor» : Sym := .user 611
/-- the name of no global -/
abbrev «accessor» : Sym := .user 612
/-- the name of no global -/
abbrev «record-type-field-mutable» : Sym := .user 613
/-- the name of no global -/
abbrev «record-size» : Sym := .user 614
/-- the name of no global -/
abbrev «size» : Sym := .user 615
/-- the name of no global -/
abbrev «record-value?» : Sym := .user 616
/-- the name of no global -/
abbrev «rec» : Sym := .user 617
/-- the name of no global -/
abbrev «rec-rtd» : Sym := .user 618
/-- the name of no global -/
abbrev «make» : Sym := .user 619
/-- the name of no global -/
abbrev «rtd?» : Sym := .user 620
/-- the name of no global -/
abbrev «actual-idx» : Sym := .user 621
/-- the name of no global -/
abbrev «mut» : Sym := .user 622
/-- the name of no global -/
abbrev «$ht» : Sym := .user 623
/-- the name of no global -/
abbrev «hashtable» : Sym := .user 624
/-- the name of no global -/
abbrev «$make-ht» : Sym := .user 625
/-- the name of no global -/
abbrev «hash» : Sym := .user 626
/-- the name of no global -/
abbrev «equiv?» : Sym := .user 627
/-- the name of no global -/
abbrev «ht» : Sym := .user 628
/-- the name of no global -/
abbrev «store» : Sym := .user 629
/-- the name of no global -/
abbrev «keys» : Sym := .user 630
/-- the name of no global -/
abbrev «vals» : Sym := .user 631
/-- the name of no global -/
abbrev «cells» : Sym := .user 632
/-- the name of no global -/
abbrev «min-size» : Sym := .user 633
/-- the name of no global -/
abbrev «do-hash» : Sym := .user 634
/-- the name of no global -/
abbrev «h» : Sym := .user 635
/-- the name of no global -/
abbrev «incr-size!» : Sym := .user 636
/-- the name of no global -/
abbrev «adjust!» : Sym := .user 637
/-- the name of no global -/
abbrev «decr-size!» : Sym := .user 638
/-- the name of no global -/
abbrev «n2» : Sym := .user 639
/-- the name of no global -/
abbrev «n1» : Sym := .user 640
/-- the name of no global -/
abbrev «store2» : Sym := .user 641
/-- the name of no global -/
abbrev «a» : Sym := .user 642
/-- the name of no global -/
abbrev «1/hashtable-cell-ref» : Sym := .user 643
/-- the name of no global -/
abbrev «b» : Sym := .user 644
/-- the name of no global -/
abbrev «1/hashtable-cell-delete!» : Sym := .user 645
/-- the name of no global -/
abbrev «bucket» : Sym := .user 646
/-- the name of no global -/
abbrev «1/hashtable-contains?» : Sym := .user 647
/-- the name of no global -/
abbrev «cell» : Sym := .user 648
/-- the name of no global -/
abbrev «1/hashtable-ref» : Sym := .user 649
/-- the name of no global -/
abbrev «default» : Sym := .user 650
/-- the name of no global -/
abbrev «1/hashtable-cell» : Sym := .user 651
/-- the name of no global -/
abbrev «1/hashtable-set!» : Sym := .user 652
/-- the name of no global -/
abbrev «1/hashtable-update!» : Sym := .user 653
/-- the name of no global -/
abbrev «updater» : Sym := .user 654
/-- the name of no global -/
abbrev «no-key!» : Sym := .user 655
/-- the name of no global -/
abbrev «non-hashtable-error» : Sym := .user 656
/-- the name of no global -/
abbrev «hashtable-update» : Sym := .user 657
/-- the name of no global -/
abbrev «proc» : Sym := .user 658
/-- the name of no global -/
abbrev «$equal-table» : Sym := .user 659
/-- the name of no global -/
abbrev «$hash-table» : Sym := .user 660
/-- the name of no global -/
abbrev «do-table-ref» : Sym := .user 661
/-- the name of no global -/
abbrev «mode» : Sym := .user 662
/-- the name of no global -/
abbrev «equal» : Sym := .user 663
/-- the name of no global -/
abbrev «do-table-set!» : Sym := .user 664
/-- the name of no global -/
abbrev «v_» : Sym := .user 665
/-- the name of no global -/
abbrev «non-proc-error» : Sym := .user 666
/-- the name of no global -/
abbrev «a-rtd» : Sym := .user 667
/-- the name of no global -/
abbrev «b-rtd» : Sym := .user 668
/-- the name of no global -/
abbrev «$writer-table» : Sym := .user 669
/-- the name of no global -/
abbrev «equal-pair?» : Sym := .user 670
/-- the name of no global -/
abbrev «equal-vector?» : Sym := .user 671
/-- the name of no global -/
abbrev «equal-hashtable?» : Sym := .user 672
/-- the name of no global -/
abbrev «kas» : Sym := .user 673
/-- the name of no global -/
abbrev «vas» : Sym := .user 674
/-- the name of no global -/
abbrev «ka» : Sym := .user 675
/-- the name of no global -/
abbrev «va» : Sym := .user 676
/-- the name of no global -/
abbrev «hash-pair» : Sym := .user 677
/-- the name of no global -/
abbrev «hc» : Sym := .user 678
/-- the name of no global -/
abbrev «hash-vector» : Sym := .user 679
/-- the name of no global -/
abbrev «hashtable->list» : Sym := .user 680
/-- the name of no global -/
abbrev «ch» : Sym := .user 681
/-- the name of no global -/
abbrev «non-output-port-error» : Sym := .user 682
/-- the name of no global -/
abbrev «non-string-error» : Sym := .user 683
/-- the name of no global -/
abbrev «non-integer-error» : Sym := .user 684
/-- the name of no global -/
abbrev «1/put-string» : Sym := .user 685
/-- the name of no global -/
abbrev «start» : Sym := .user 686
/-- the name of no global -/
abbrev «$write-char» : Sym := .user 687
/-- the name of no global -/
abbrev «lparen» : Sym := .user 688
/-- the name of no global -/
abbrev «rparen» : Sym := .user 689
/-- the name of no global -/
abbrev «wr» : Sym := .user 690
/-- the name of no global -/
abbrev «d?» : Sym := .user 691
/-- the name of no global -/
abbrev «wrpair» : Sym := .user 692
/-- the name of no global -/
abbrev «wrchar» : Sym := .user 693
/-- the name of no global -/
abbrev «wrstring» : Sym := .user 694
/-- the name of no global -/
abbrev «wrvector» : Sym := .user 695
/-- the name of no global -/
abbrev «wrsyntax» : Sym := .user 696
/-- the name of no global -/
abbrev «wrrtd» : Sym := .user 697
/-- the name of no global -/
abbrev «wrrecord» : Sym := .user 698
/-- the name of no global -/
abbrev «sep» : Sym := .user 699
/-- the name of no global -/
abbrev «o» : Sym := .user 700
/-- the name of no global -/
abbrev «fmt-args» : Sym := .user 701
/-- the name of no global -/
abbrev «nc» : Sym := .user 702
/-- the name of no global -/
abbrev «check-format!» : Sym := .user 703
/-- the name of no global -/
abbrev «fmt-preds» : Sym := .user 704
/-- the name of no global -/
abbrev «fmt-pred» : Sym := .user 705
/-- the name of no global -/
abbrev «arg» : Sym := .user 706
/-- the name of no global -/
abbrev «do-format» : Sym := .user 707
/-- the name of no global -/
abbrev «stx» : Sym := .user 708
/-- the name of no global -/
abbrev «$pvar» : Sym := .user 709
/-- the name of no global -/
abbrev «pattern-variable» : Sym := .user 710
/-- the name of no global -/
abbrev «$make-pvar» : Sym := .user 711
/-- the name of no global -/
abbrev «depth» : Sym := .user 712
/-- the name of no global -/
abbrev «1/copy-environment» : Sym := .user 713
/-- the name of no global -/
abbrev «env» : Sym := .user 714
/-- the name of no global -/
abbrev «mutable?» : Sym := .user 715
/-- the name of no global -/
abbrev «syms» : Sym := .user 716
/-- the name of no global -/
abbrev «default-fail» : Sym := .user 717
/-- the name of no global -/
abbrev «1/environment-ref» : Sym := .user 718
/-- the name of no global -/
abbrev «fail» : Sym := .user 719
/-- the name of no global -/
abbrev «raise-arugment-error» : Sym := .user 720
/-- the name of no global -/
abbrev «fname» : Sym := .user 721
/-- the name of no global -/
abbrev «path» : Sym := .user 722
/-- the name of no global -/
abbrev «&argument-exn» : Sym := .user 723
/-- the name of no global -/
abbrev «&arity-exn» : Sym := .user 724
/-- the name of no global -/
abbrev «&range-exn» : Sym := .user 725
/-- the name of no global -/
abbrev «&missing-exn» : Sym := .user 726
/-- the name of no global -/
abbrev «&syntax-exn» : Sym := .user 727
/-- the name of no global -/
abbrev «display-exn» : Sym := .user 728
/-- the name of no global -/
abbrev «exn» : Sym := .user 729
/-- the name of no global -/
abbrev «display-arity» : Sym := .user 730
/-- the name of no global -/
abbrev «$raise-syntax-error» : Sym := .user 731
/-- the name of no global -/
abbrev «sub-stx» : Sym := .user 732
/-- the name of no global -/
abbrev «syntax-error» : Sym := .user 733
/-- the name of no global -/
abbrev «lst» : Sym := .user 734
/-- the name of no global -/
abbrev «pos» : Sym := .user 735
/-- the name of no global -/
abbrev «ks» : Sym := .user 736
/-- the name of no global -/
abbrev «loop2» : Sym := .user 737
/-- the name of no global -/
abbrev «xs*» : Sym := .user 738
/-- the name of no global -/
abbrev «base» : Sym := .user 739
/-- the name of no global -/
abbrev «subpaths» : Sym := .user 740
/-- the name of no global -/
abbrev «string-terminates-with-/?» : Sym := .user 741
/-- the name of no global -/
abbrev «paths» : Sym := .user 742
/-- the name of no global -/
abbrev «accum» : Sym := .user 743
/-- the name of no global -/
abbrev «path-elems» : Sym := .user 744
/-- the name of no global -/
abbrev «end» : Sym := .user 745
/-- the name of no global -/
abbrev «elem» : Sym := .user 746
/-- the name of no global -/
abbrev «generics» : Sym := .user 747
/-- the name of no global -/
abbrev «generic» : Sym := .user 748
/-- the name of no global -/
abbrev «impls» : Sym := .user 749
/-- the name of no global -/
abbrev «record-type-add-generics!» : Sym := .user 750
/-- the name of no global -/
abbrev «names» : Sym := .user 751
/-- the name of no global -/
abbrev «entry» : Sym := .user 752
/-- the name of no global -/
abbrev «impl» : Sym := .user 753
/-- the name of no global -/
abbrev «formals» : Sym := .user 754
/-- the name of no global -/
abbrev «expected-arity» : Sym := .user 755
/-- the name of no global -/
abbrev «rtd-generics» : Sym := .user 756
/-- the name of no global -/
abbrev «maybe-entry» : Sym := .user 757
/-- the name of no global -/
abbrev «:gen» : Sym := .user 758
/-- the name of no global -/
abbrev «equal+hash» : Sym := .user 759
/-- the name of no global -/
abbrev «hash-proc» : Sym := .user 760
/-- the name of no global -/
abbrev «equal-proc» : Sym := .user 761
/-- the name of no global -/
abbrev «custom-write» : Sym := .user 762
/-- the name of no global -/
abbrev «write-proc» : Sym := .user 763
/-- the name of no global -/
abbrev «define-record-type» : Sym := .user 764
/-- the name of no global -/
abbrev «st» : Sym := .user 765
/-- the name of no global -/
abbrev «cp» : Sym := .user 766
/-- the name of no global -/
abbrev «st2» : Sym := .user 767
/-- the name of no global -/
abbrev «elts» : Sym := .user 768
/-- the name of no global -/
abbrev «ss» : Sym := .user 769
/-- the name of no global -/
abbrev «u» : Sym := .user 770
/-- the name of no global -/
abbrev «i*» : Sym := .user 771
/-- the name of no global -/
abbrev «st0» : Sym := .user 772
/-- the name of no global -/
abbrev «sts» : Sym := .user 773
/-- the name of no global -/
abbrev «diff» : Sym := .user 774
/-- the name of no global -/
abbrev «sstr» : Sym := .user 775
/-- the name of no global -/
abbrev «x1» : Sym := .user 776
/-- the name of no global -/
abbrev «x2» : Sym := .user 777
/-- the name of no global -/
abbrev «l1» : Sym := .user 778
/-- the name of no global -/
abbrev «l2» : Sym := .user 779
/-- the name of no global -/
abbrev «fn» : Sym := .user 780
/-- the name of no global -/
abbrev «lsts» : Sym := .user 781
/-- the name of no global -/
abbrev «prop?» : Sym := .user 782
/-- the name of no global -/
abbrev «pre» : Sym := .user 783
/-- the name of no global -/
abbrev «post» : Sym := .user 784
/-- the name of no global -/
abbrev «m» : Sym := .user 785
/-- the name of no global -/
abbrev «bound» : Sym := .user 786
/-- the name of no global -/
abbrev «prev» : Sym := .user 787
/-- the name of no global -/
abbrev «xforms» : Sym := .user 788
/-- the name of no global -/
abbrev «new-xforms» : Sym := .user 789
/-- the name of no global -/
abbrev «form-name» : Sym := .user 790
/-- the name of no global -/
abbrev «expr» : Sym := .user 791
/-- the name of no global -/
abbrev «head» : Sym := .user 792
/-- the name of no global -/
abbrev «define-syntaxes» : Sym := .user 793
/-- the name of no global -/
abbrev «let-syntaxes» : Sym := .user 794
/-- the name of no global -/
abbrev «datum» : Sym := .user 795
/-- the name of no global -/
abbrev «or-t» : Sym := .user 796
/-- the name of no global -/
abbrev «new-ids» : Sym := .user 797
/-- the name of no global -/
abbrev «new-unique» : Sym := .user 798
/-- the name of no global -/
abbrev «form» : Sym := .user 799
/-- the name of no global -/
abbrev «rib0» : Sym := .user 800
/-- the name of no global -/
abbrev «rib1» : Sym := .user 801
/-- the name of no global -/
abbrev «rib2» : Sym := .user 802
/-- the name of no global -/
abbrev «bindings» : Sym := .user 803
/-- the name of no global -/
abbrev «bind-rib» : Sym := .user 804
/-- the name of no global -/
abbrev «bind» : Sym := .user 805
/-- the name of no global -/
abbrev «clauses» : Sym := .user 806
/-- the name of no global -/
abbrev «clause» : Sym := .user 807
/-- the name of no global -/
abbrev «cond-rib» : Sym := .user 808
/-- the name of no global -/
abbrev «ift-rib» : Sym := .user 809
/-- the name of no global -/
abbrev «iff-rib» : Sym := .user 810
/-- the name of no global -/
abbrev «dup» : Sym := .user 811
/-- the name of no global -/
abbrev «get-pattern-variable» : Sym := .user 812
/-- the name of no global -/
abbrev «exprs» : Sym := .user 813
/-- the name of no global -/
abbrev «bind/define-values» : Sym := .user 814
/-- the name of no global -/
abbrev «check/formals!» : Sym := .user 815
/-- the name of no global -/
abbrev «check/expr!» : Sym := .user 816
/-- the name of no global -/
abbrev «expr0» : Sym := .user 817
/-- the name of no global -/
abbrev «body» : Sym := .user 818
/-- the name of no global -/
abbrev «scope*» : Sym := .user 819
/-- the name of no global -/
abbrev «e» : Sym := .user 820
/-- the name of no global -/
abbrev «rec-scope» : Sym := .user 821
/-- the name of no global -/
abbrev «binding» : Sym := .user 822
/-- the name of no global -/
abbrev «val» : Sym := .user 823
/-- the name of no global -/
abbrev «eval/values» : Sym := .user 824
/-- the name of no global -/
abbrev «results» : Sym := .user 825
/-- the name of no global -/
abbrev «eval/xform» : Sym := .user 826
/-- the name of no global -/
abbrev «xform» : Sym := .user 827
/-- the name of no global -/
abbrev «expand/body» : Sym := .user 828
/-- the name of no global -/
abbrev «defines» : Sym := .user 829
/-- the name of no global -/
abbrev «expr*» : Sym := .user 830
/-- the name of no global -/
abbrev «expand/expr» : Sym := .user 831
/-- the name of no global -/
abbrev «value» : Sym := .user 832
/-- the name of no global -/
abbrev «bind-expr» : Sym := .user 833
/-- the name of no global -/
abbrev «recur-begin?» : Sym := .user 834
/-- the name of no global -/
abbrev «patterns» : Sym := .user 835
/-- the name of no global -/
abbrev «maybe-xform» : Sym := .user 836
/-- the name of no global -/
abbrev «let-ids» : Sym := .user 837
/-- the name of no global -/
abbrev «binding-ids» : Sym := .user 838
/-- the name of no global -/
abbrev «rhs» : Sym := .user 839
/-- the name of no global -/
abbrev «bind-xforms» : Sym := .user 840
/-- the name of no global -/
abbrev «xform-entry» : Sym := .user 841
/-- the name of no global -/
abbrev «bind*» : Sym := .user 842
/-- the name of no global -/
abbrev «bind-ids» : Sym := .user 843
/-- the name of no global -/
abbrev «body*» : Sym := .user 844
/-- the name of no global -/
abbrev «stx-lst» : Sym := .user 845
/-- the name of no global -/
abbrev «expand/module*» : Sym := .user 846
/-- the name of no global -/
abbrev «expand/top-level» : Sym := .user 847
/-- the name of no global -/
abbrev «expand/non-define-values» : Sym := .user 848
/-- the name of no global -/
abbrev «define-ids» : Sym := .user 849
/-- the name of no global -/
abbrev «xform-ids» : Sym := .user 850
/-- the name of no global -/
abbrev «exprs*» : Sym := .user 851
/-- the name of no global -/
abbrev «with-scope» : Sym := .user 852
/-- the name of no global -/
abbrev «in-scope0» : Sym := .user 853
/-- the name of no global -/
abbrev «in-scope» : Sym := .user 854
/-- the name of no global -/
abbrev «rhs*» : Sym := .user 855
/-- the name of no global -/
abbrev «xforms-in-scope» : Sym := .user 856
/-- the name of no global -/
abbrev «xform*» : Sym := .user 857
/-- the name of no global -/
abbrev «forms» : Sym := .user 858
/-- the name of no global -/
abbrev «expand/define-values» : Sym := .user 859
/-- the name of no global -/
abbrev «form*» : Sym := .user 860
/-- the name of no global -/
abbrev «xforms*» : Sym := .user 861
/-- the name of no global -/
abbrev «exprs**» : Sym := .user 862
/-- the name of no global -/
abbrev «print-handler» : Sym := .user 863
/-- the name of no global -/
abbrev «result-handler» : Sym := .user 864
/-- the name of no global -/
abbrev «new-cwd» : Sym := .user 865
/-- the name of no global -/
abbrev «exported» : Sym := .user 866
/-- the name of no global -/
abbrev «imported» : Sym := .user 867
/-- the name of no global -/
abbrev «imported-xforms» : Sym := .user 868
/-- the name of no global -/
abbrev «imported-modules» : Sym := .user 869
/-- the name of no global -/
abbrev «stx-env» : Sym := .user 870
/-- the name of no global -/
abbrev «module-xforms» : Sym := .user 871
/-- the name of no global -/
abbrev «$import» : Sym := .user 872
/-- the name of no global -/
abbrev «evalable» : Sym := .user 873
/-- the name of no global -/
abbrev «imports» : Sym := .user 874
/-- the name of no global -/
abbrev «maybe-import» : Sym := .user 875
/-- the name of no global -/
abbrev «from-module» : Sym := .user 876
/-- the name of no global -/
abbrev «export» : Sym := .user 877
/-- the name of no global -/
abbrev «exports» : Sym := .user 878
/-- the name of no global -/
abbrev «maybe-export» : Sym := .user 879
/-- the name of no global -/
abbrev «all» : Sym := .user 880
/-- the name of no global -/
abbrev «module-name» : Sym := .user 881
/-- the name of no global -/
abbrev «$expand» : Sym := .user 882
/-- the name of no global -/
abbrev «raw-exprs» : Sym := .user 883
/-- the name of no global -/
abbrev «non-import-exprs» : Sym := .user 884
/-- the name of no global -/
abbrev «expanded-exprs» : Sym := .user 885
/-- the name of no global -/
abbrev «env*» : Sym := .user 886
/-- the name of no global -/
abbrev «result» : Sym := .user 887
/-- the name of no global -/
abbrev «last» : Sym := .user 888
/-- the name of no global -/
abbrev «export-values» : Sym := .user 889
/-- the name of no global -/
abbrev «export-xforms» : Sym := .user 890
/-- the name of no global -/
abbrev «envs» : Sym := .user 891
/-- the name of no global -/
abbrev «internals» : Sym := .user 892
/-- the name of no global -/
abbrev «oparen» : Sym := .user 893
/-- the name of no global -/
abbrev «cparen» : Sym := .user 894
/-- the name of no global -/
abbrev «obrack» : Sym := .user 895
/-- the name of no global -/
abbrev «cbrack» : Sym := .user 896
/-- the name of no global -/
abbrev «obrace» : Sym := .user 897
/-- the name of no global -/
abbrev «cbrace» : Sym := .user 898
/-- the name of no global -/
abbrev «space?» : Sym := .user 899
/-- the name of no global -/
abbrev «delimeter?» : Sym := .user 900
/-- the name of no global -/
abbrev «symbol-char?» : Sym := .user 901
/-- the name of no global -/
abbrev «digit?» : Sym := .user 902
/-- the name of no global -/
abbrev «0-char» : Sym := .user 903
/-- the name of no global -/
abbrev «9-char» : Sym := .user 904
/-- the name of no global -/
abbrev «hex-digit?» : Sym := .user 905
/-- the name of no global -/
abbrev «digit-prefix?» : Sym := .user 906
/-- the name of no global -/
abbrev «assert-not-eof!» : Sym := .user 907
/-- the name of no global -/
abbrev «assert-matching-parens!» : Sym := .user 908
/-- the name of no global -/
abbrev «open» : Sym := .user 909
/-- the name of no global -/
abbrev «close» : Sym := .user 910
/-- the name of no global -/
abbrev «assert-delimeter!» : Sym := .user 911
/-- the name of no global -/
abbrev «skip-comment!» : Sym := .user 912
/-- the name of no global -/
abbrev «skip-block-comment!» : Sym := .user 913
/-- the name of no global -/
abbrev «block-level» : Sym := .user 914
/-- the name of no global -/
abbrev «skip-until-token!» : Sym := .user 915
/-- the name of no global -/
abbrev «check-expected-string!» : Sym := .user 916
/-- the name of no global -/
abbrev «read-pair» : Sym := .user 917
/-- the name of no global -/
abbrev «read-loop» : Sym := .user 918
/-- the name of no global -/
abbrev «maybe-dot» : Sym := .user 919
/-- the name of no global -/
abbrev «.» : Sym := .user 920
/-- the name of no global -/
abbrev «read-vector» : Sym := .user 921
/-- the name of no global -/
abbrev «elems» : Sym := .user 922
/-- the name of no global -/
abbrev «read-character» : Sym := .user 923
/-- the name of no global -/
abbrev «cn» : Sym := .user 924
/-- the name of no global -/
abbrev «read-number» : Sym := .user 925
/-- the name of no global -/
abbrev «chars» : Sym := .user 926
/-- the name of no global -/
abbrev «num» : Sym := .user 927
/-- the name of no global -/
abbrev «read-digit!» : Sym := .user 928
/-- the name of no global -/
abbrev «read-symbol» : Sym := .user 929
/-- the name of no global -/
abbrev «read-hex-number» : Sym := .user 930
/-- the name of no global -/
abbrev «sign» : Sym := .user 931
/-- the name of no global -/
abbrev «a-char» : Sym := .user 932
/-- the name of no global -/
abbrev «A-char» : Sym := .user 933
/-- the name of no global -/
abbrev «read-string» : Sym := .user 934
/-- the name of no global -/
abbrev «syntax» : Sym := .user 935
/-- the name of no global -/
abbrev «pos-num» : Sym := .user 936
/-- the name of no global -/
abbrev «str-chars» : Sym := .user 937

end S

end Minim.Lib
