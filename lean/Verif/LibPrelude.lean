import Verif.LibNames

/-!
# The code of prelude.min (C104)

Written by `tools/gen_code.py`: the expressions of the file, in order.  Literals are numbered:
0 is "formatted error"; 1 is "contract violation"; 2 is "arity mismatch"; 3 is "index out of bounds"; 4 is "not found"; 5 is "pair?"; 6 is "(pairof pair? any)";
  7 is "(pairof any pair?)"; 8 is "(pairof (pairof pair? any) any)"; 9 is "(pairof any (pairof pair? any))"; 10 is "(pairof (pairof any pair?) any)"; 11 is
  "(pairof (pairof (pairof pair? any) any) any)"; 12 is "(pairof any (pairof (pairof pair? any) any))"; 13 is "(pairof (pairof any (pairof pair? any)) any)"; 14
  is "(pairof (pairof (pairof any pair?) any) any)"; 15 is "(pairof any (pairof (pairof any pair?) any))"; 16 is "(pairof (pairof any (pairof any pair?)) any)";
  17 is "(pairof (pairof any (pairof any pair?) any)"; 18 is "number?"; 19 is 0; 20 is "division by zero"; 21 is 1; 22 is "procedure?"; 23 is "symbol?"; 24 is
  "char?"; 25 is "integer?"; 26 is "non-negative-integer?"; 27 is #\a; 28 is "string?"; 29 is ""; 30 is #\0; 31 is "list?"; 32 is "lists do not have same size;
  expected ~a, given ~a"; 33 is 2; 34 is "non-negative-fixnum?"; 35 is "vector?"; 36 is "box?"; 37 is "input-port?"; 38 is "output-port?"; 39 is "(and
  output-port? string-port?)"; 40 is "non-sealed record type"; 41 is "boolean?"; 42 is "symbol? or #f"; 43 is "record-type-descriptor? or #f"; 44 is "duplicate
  field"; 45 is "invalid field; '(immutable <name>) or '(mutable <name>)"; 46 is "record-type-name?"; 47 is "non-negative integer?"; 48 is "record?"; 49 is
  "record-type-descriptor?"; 50 is "~a"; 51 is #((mutable store) (immutable hash) (immutable equiv)); 52 is "hashtable?"; 53 is 13; 54 is "invalid hash
  function"; 55 is 4; 56 is "key"; 57 is "unknown mode: ~a"; 58 is "record-type-desriptor?"; 59 is 410225874; 60 is 523658599; 61 is "end"; 62 is "start"; 63 is
  #\(; 64 is #\); 65 is "()"; 66 is "#t"; 67 is "#f"; 68 is "#<eof>"; 69 is "#<void>"; 70 is "#<input port>"; 71 is "#<output port>"; 72 is "#<procedure>"; 73
  is "#<environment>"; 74 is "#<garbage>"; 75 is "#\\"; 76 is #\alarm; 77 is "alarm"; 78 is #\backspace; 79 is "backspace"; 80 is #\delete; 81 is "delete"; 82
  is #\esc; 83 is "esc"; 84 is #\newline; 85 is "newline"; 86 is #\nul; 87 is "nul"; 88 is #\page; 89 is "page"; 90 is #\return; 91 is "return"; 92 is #\space;
  93 is "space"; 94 is #\tab; 95 is "tab"; 96 is #\vtab; 97 is "vtab"; 98 is #\"; 99 is "\\a"; 100 is "\\b"; 101 is "\\n"; 102 is "\\f"; 103 is "\\r"; 104 is
  "\\t"; 105 is "\\v"; 106 is "\\\""; 107 is #\\; 108 is "\\\\"; 109 is " . "; 110 is #\#; 111 is "#<record-type:"; 112 is #\>; 113 is "#<"; 114 is "#<syntax ";
  115 is "output port?"; 116 is #\~; 117 is "ill-formed format string `~a`"; 118 is #\A; 119 is #\s; 120 is #\S; 121 is #\%; 122 is "unknown format directive
  `~a`"; 123 is "format argument ~a, given unexpected value ~a"; 124 is "format string requires ~a argument, given ~a"; 125 is "syntax?"; 126 is #((immutable
  value) (immutable depth)); 127 is "list of symbols"; 128 is "environment?"; 129 is 255; 130 is "an integer between 0 and 255"; 131 is #(who message); 132 is
  #(expect actual); 133 is #(value description lower upper index); 134 is 3; 135 is #(description value key); 136 is #(form subform); 137 is "~a: ~a\n"; 138 is
  "error: ~a\n"; 139 is "~a\n"; 140 is "\n"; 141 is ", ~a"; 142 is ", at least ~a\n"; 143 is "at least ~a\n"; 144 is "  expected: ~a\n"; 145 is "  given: ~a\n";
  146 is "  expected: "; 147 is "  range: [~a, ~a)\n"; 148 is "  index: ~a\n"; 149 is "  ~a index: ~a\n"; 150 is "  in: ~a\n"; 151 is "  ~a: ~a\n"; 152 is " 
  at: ~a\n"; 153 is "uncaught exception: ~a\n"; 154 is "  argument: ~s"; 155 is "  arguments...:"; 156 is "\n   ~s"; 157 is "symbol? or string? or #f"; 158 is
  "procedure-arity?"; 159 is "~a index out of bounds"; 160 is "~a not found"; 161 is "syntax or #f"; 162 is "string"
-/

set_option autoImplicit false
set_option maxRecDepth 4000

namespace Minim.Lib

open Minim.Sx Minim.Core S

/-- define error (prelude.min:6-8) -/
def prelude_1 : E := (.define [«error»] (.lam ⟨[«who», «msg»], some «args»⟩ [(.app (.var «$boot-error») [(.var «who»), (.var «msg»), (.var «args»)])]))

/-- define errorf (prelude.min:10-12) -/
def prelude_2 : E := (.define [«errorf»] (.lam ⟨[«who», «fmt»], some «args»⟩ [(.app (.var «apply») [(.var «error»), (.var «who»), (.lit (.const 0)), (.var
  «fmt»), (.var «args»)])]))

/-- define raise-argument-error (prelude.min:14-16) -/
def prelude_3 : E := (.define [«raise-argument-error»] (.lam ⟨[«who», «expected», «v»], none⟩ [(.app (.var «error») [(.var «who»), (.lit (.const 1)), (.var
  «expected»), (.var «v»)])]))

/-- define raise-arity-error (prelude.min:18-20) -/
def prelude_4 : E := (.define [«raise-arity-error»] (.lam ⟨[«who», «arity», «cnt»], none⟩ [(.app (.var «error») [(.var «who»), (.lit (.const 2)), (.var
  «arity»), (.var «cnt»)])]))

/-- define raise-range-error (prelude.min:22-24) -/
def prelude_5 : E := (.define [«raise-range-error»] (.lam ⟨[«who», «v», «descr», «lower», «upper», «index»], none⟩ [(.app (.var «error») [(.var «who»), (.lit
  (.const 3)), (.var «v»), (.var «descr»), (.var «lower»), (.var «upper»), (.var «index»)])]))

/-- define raise-missing-error (prelude.min:26-28) -/
def prelude_6 : E := (.define [«raise-missing-error»] (.lam ⟨[«who», «descr», «x», «k»], none⟩ [(.app (.var «error») [(.var «who»), (.lit (.const 4)), (.var
  «who»), (.var «descr»), (.var «x»), (.var «k»)])]))

/-- call of $c-error-handler (prelude.min:30-32) -/
def prelude_7 : E := (.app (.var «$c-error-handler») [(.lam ⟨[«who», «msg», «args»], none⟩ [(.app (.var «apply») [(.var «error»), (.var «who»), (.var «msg»),
  (.var «args»)])])])

/-- define car (prelude.min:37-41) -/
def prelude_8 : E := (.define [«car»] (.lam ⟨[«x»], none⟩ [(.ite (.app (.var «pair?») [(.var «x»)]) (.app (.var «$car») [(.var «x»)]) (.app (.var
  «raise-argument-error») [(.quote (.sym «car»)), (.lit (.const 5)), (.var «x»)]))]))

/-- define cdr (prelude.min:43-47) -/
def prelude_9 : E := (.define [«cdr»] (.lam ⟨[«x»], none⟩ [(.ite (.app (.var «pair?») [(.var «x»)]) (.app (.var «$cdr») [(.var «x»)]) (.app (.var
  «raise-argument-error») [(.quote (.sym «cdr»)), (.lit (.const 5)), (.var «x»)]))]))

/-- define caar (prelude.min:49-59) -/
def prelude_10 : E := (.define [«caar»] (.letv [.mk [«oops!»] (.lam ⟨[«x»], none⟩ [(.app (.var «raise-argument-error») [(.quote (.sym «caar»)), (.lit (.const
  6)), (.var «x»)])])] [(.lam ⟨[«x»], none⟩ [(.ite (.app (.var «pair?») [(.var «x»)]) (.letv [.mk [«t»] (.app (.var «$car») [(.var «x»)])] [(.ite (.app (.var
  «pair?») [(.var «t»)]) (.app (.var «$car») [(.var «t»)]) (.app (.var «oops!») [(.var «x»)]))]) (.app (.var «oops!») [(.var «x»)]))])]))

/-- define cadr (prelude.min:61-71) -/
def prelude_11 : E := (.define [«cadr»] (.letv [.mk [«oops!»] (.lam ⟨[«x»], none⟩ [(.app (.var «raise-argument-error») [(.quote (.sym «cadr»)), (.lit (.const
  7)), (.var «x»)])])] [(.lam ⟨[«x»], none⟩ [(.ite (.app (.var «pair?») [(.var «x»)]) (.letv [.mk [«t»] (.app (.var «$cdr») [(.var «x»)])] [(.ite (.app (.var
  «pair?») [(.var «t»)]) (.app (.var «$car») [(.var «t»)]) (.app (.var «oops!») [(.var «x»)]))]) (.app (.var «oops!») [(.var «x»)]))])]))

/-- define cdar (prelude.min:73-83) -/
def prelude_12 : E := (.define [«cdar»] (.letv [.mk [«oops!»] (.lam ⟨[«x»], none⟩ [(.app (.var «raise-argument-error») [(.quote (.sym «cdar»)), (.lit (.const
  6)), (.var «x»)])])] [(.lam ⟨[«x»], none⟩ [(.ite (.app (.var «pair?») [(.var «x»)]) (.letv [.mk [«t»] (.app (.var «$car») [(.var «x»)])] [(.ite (.app (.var
  «pair?») [(.var «t»)]) (.app (.var «$cdr») [(.var «t»)]) (.app (.var «oops!») [(.var «x»)]))]) (.app (.var «oops!») [(.var «x»)]))])]))

/-- define cddr (prelude.min:85-95) -/
def prelude_13 : E := (.define [«cddr»] (.letv [.mk [«oops!»] (.lam ⟨[«x»], none⟩ [(.app (.var «raise-argument-error») [(.quote (.sym «cddr»)), (.lit (.const
  7)), (.var «x»)])])] [(.lam ⟨[«x»], none⟩ [(.ite (.app (.var «pair?») [(.var «x»)]) (.letv [.mk [«t»] (.app (.var «$cdr») [(.var «x»)])] [(.ite (.app (.var
  «pair?») [(.var «t»)]) (.app (.var «$cdr») [(.var «t»)]) (.app (.var «oops!») [(.var «x»)]))]) (.app (.var «oops!») [(.var «x»)]))])]))

/-- define caaar (prelude.min:97-110) -/
def prelude_14 : E := (.define [«caaar»] (.letv [.mk [«oops!»] (.lam ⟨[«x»], none⟩ [(.app (.var «raise-argument-error») [(.quote (.sym «caaar»)), (.lit (.const
  8)), (.var «x»)])])] [(.lam ⟨[«x»], none⟩ [(.ite (.app (.var «pair?») [(.var «x»)]) (.letv [.mk [«t»] (.app (.var «$car») [(.var «x»)])] [(.ite (.app (.var
  «pair?») [(.var «t»)]) (.letv [.mk [«t»] (.app (.var «$car») [(.var «t»)])] [(.ite (.app (.var «pair?») [(.var «t»)]) (.app (.var «$car») [(.var «t»)]) (.app
  (.var «oops!») [(.var «x»)]))]) (.app (.var «oops!») [(.var «x»)]))]) (.app (.var «oops!») [(.var «x»)]))])]))

/-- define caadr (prelude.min:112-125) -/
def prelude_15 : E := (.define [«caadr»] (.letv [.mk [«oops!»] (.lam ⟨[«x»], none⟩ [(.app (.var «raise-argument-error») [(.quote (.sym «caadr»)), (.lit (.const
  9)), (.var «x»)])])] [(.lam ⟨[«x»], none⟩ [(.ite (.app (.var «pair?») [(.var «x»)]) (.letv [.mk [«t»] (.app (.var «$cdr») [(.var «x»)])] [(.ite (.app (.var
  «pair?») [(.var «t»)]) (.letv [.mk [«t»] (.app (.var «$car») [(.var «t»)])] [(.ite (.app (.var «pair?») [(.var «t»)]) (.app (.var «$car») [(.var «t»)]) (.app
  (.var «oops!») [(.var «x»)]))]) (.app (.var «oops!») [(.var «x»)]))]) (.app (.var «oops!») [(.var «x»)]))])]))

/-- define cadar (prelude.min:127-140) -/
def prelude_16 : E := (.define [«cadar»] (.letv [.mk [«oops!»] (.lam ⟨[«x»], none⟩ [(.app (.var «raise-argument-error») [(.quote (.sym «cadar»)), (.lit (.const
  10)), (.var «x»)])])] [(.lam ⟨[«x»], none⟩ [(.ite (.app (.var «pair?») [(.var «x»)]) (.letv [.mk [«t»] (.app (.var «$car») [(.var «x»)])] [(.ite (.app (.var
  «pair?») [(.var «t»)]) (.letv [.mk [«t»] (.app (.var «$cdr») [(.var «t»)])] [(.ite (.app (.var «pair?») [(.var «t»)]) (.app (.var «$car») [(.var «t»)]) (.app
  (.var «oops!») [(.var «x»)]))]) (.app (.var «oops!») [(.var «x»)]))]) (.app (.var «oops!») [(.var «x»)]))])]))

/-- define caddr (prelude.min:142-155) -/
def prelude_17 : E := (.define [«caddr»] (.letv [.mk [«oops!»] (.lam ⟨[«x»], none⟩ [(.app (.var «raise-argument-error») [(.quote (.sym «caddr»)), (.lit (.const
  10)), (.var «x»)])])] [(.lam ⟨[«x»], none⟩ [(.ite (.app (.var «pair?») [(.var «x»)]) (.letv [.mk [«t»] (.app (.var «$cdr») [(.var «x»)])] [(.ite (.app (.var
  «pair?») [(.var «t»)]) (.letv [.mk [«t»] (.app (.var «$cdr») [(.var «t»)])] [(.ite (.app (.var «pair?») [(.var «t»)]) (.app (.var «$car») [(.var «t»)]) (.app
  (.var «oops!») [(.var «x»)]))]) (.app (.var «oops!») [(.var «x»)]))]) (.app (.var «oops!») [(.var «x»)]))])]))

/-- define cdaar (prelude.min:157-170) -/
def prelude_18 : E := (.define [«cdaar»] (.letv [.mk [«oops!»] (.lam ⟨[«x»], none⟩ [(.app (.var «raise-argument-error») [(.quote (.sym «cdaar»)), (.lit (.const
  8)), (.var «x»)])])] [(.lam ⟨[«x»], none⟩ [(.ite (.app (.var «pair?») [(.var «x»)]) (.letv [.mk [«t»] (.app (.var «$car») [(.var «x»)])] [(.ite (.app (.var
  «pair?») [(.var «t»)]) (.letv [.mk [«t»] (.app (.var «$car») [(.var «t»)])] [(.ite (.app (.var «pair?») [(.var «t»)]) (.app (.var «$cdr») [(.var «t»)]) (.app
  (.var «oops!») [(.var «x»)]))]) (.app (.var «oops!») [(.var «x»)]))]) (.app (.var «oops!») [(.var «x»)]))])]))

/-- define cdadr (prelude.min:172-185) -/
def prelude_19 : E := (.define [«cdadr»] (.letv [.mk [«oops!»] (.lam ⟨[«x»], none⟩ [(.app (.var «raise-argument-error») [(.quote (.sym «cdadr»)), (.lit (.const
  9)), (.var «x»)])])] [(.lam ⟨[«x»], none⟩ [(.ite (.app (.var «pair?») [(.var «x»)]) (.letv [.mk [«t»] (.app (.var «$cdr») [(.var «x»)])] [(.ite (.app (.var
  «pair?») [(.var «t»)]) (.letv [.mk [«t»] (.app (.var «$car») [(.var «t»)])] [(.ite (.app (.var «pair?») [(.var «t»)]) (.app (.var «$cdr») [(.var «t»)]) (.app
  (.var «oops!») [(.var «x»)]))]) (.app (.var «oops!») [(.var «x»)]))]) (.app (.var «oops!») [(.var «x»)]))])]))

/-- define cddar (prelude.min:187-200) -/
def prelude_20 : E := (.define [«cddar»] (.letv [.mk [«oops!»] (.lam ⟨[«x»], none⟩ [(.app (.var «raise-argument-error») [(.quote (.sym «cddar»)), (.lit (.const
  10)), (.var «x»)])])] [(.lam ⟨[«x»], none⟩ [(.ite (.app (.var «pair?») [(.var «x»)]) (.letv [.mk [«t»] (.app (.var «$car») [(.var «x»)])] [(.ite (.app (.var
  «pair?») [(.var «t»)]) (.letv [.mk [«t»] (.app (.var «$cdr») [(.var «t»)])] [(.ite (.app (.var «pair?») [(.var «t»)]) (.app (.var «$cdr») [(.var «t»)]) (.app
  (.var «oops!») [(.var «x»)]))]) (.app (.var «oops!») [(.var «x»)]))]) (.app (.var «oops!») [(.var «x»)]))])]))

/-- define cdddr (prelude.min:202-215) -/
def prelude_21 : E := (.define [«cdddr»] (.letv [.mk [«oops!»] (.lam ⟨[«x»], none⟩ [(.app (.var «raise-argument-error») [(.quote (.sym «cdddr»)), (.lit (.const
  10)), (.var «x»)])])] [(.lam ⟨[«x»], none⟩ [(.ite (.app (.var «pair?») [(.var «x»)]) (.letv [.mk [«t»] (.app (.var «$cdr») [(.var «x»)])] [(.ite (.app (.var
  «pair?») [(.var «t»)]) (.letv [.mk [«t»] (.app (.var «$cdr») [(.var «t»)])] [(.ite (.app (.var «pair?») [(.var «t»)]) (.app (.var «$cdr») [(.var «t»)]) (.app
  (.var «oops!») [(.var «x»)]))]) (.app (.var «oops!») [(.var «x»)]))]) (.app (.var «oops!») [(.var «x»)]))])]))

/-- define caaaar (prelude.min:217-233) -/
def prelude_22 : E := (.define [«caaaar»] (.letv [.mk [«oops!»] (.lam ⟨[«x»], none⟩ [(.app (.var «raise-argument-error») [(.quote (.sym «caaaar»)), (.lit
  (.const 11)), (.var «x»)])])] [(.lam ⟨[«x»], none⟩ [(.ite (.app (.var «pair?») [(.var «x»)]) (.letv [.mk [«t»] (.app (.var «$car») [(.var «x»)])] [(.ite (.app
  (.var «pair?») [(.var «t»)]) (.letv [.mk [«t»] (.app (.var «$car») [(.var «t»)])] [(.ite (.app (.var «pair?») [(.var «t»)]) (.letv [.mk [«t»] (.app (.var
  «$car») [(.var «t»)])] [(.ite (.app (.var «pair?») [(.var «t»)]) (.app (.var «$car») [(.var «t»)]) (.app (.var «oops!») [(.var «x»)]))]) (.app (.var «oops!»)
  [(.var «x»)]))]) (.app (.var «oops!») [(.var «x»)]))]) (.app (.var «oops!») [(.var «x»)]))])]))

/-- define caaadr (prelude.min:235-251) -/
def prelude_23 : E := (.define [«caaadr»] (.letv [.mk [«oops!»] (.lam ⟨[«x»], none⟩ [(.app (.var «raise-argument-error») [(.quote (.sym «caaadr»)), (.lit
  (.const 12)), (.var «x»)])])] [(.lam ⟨[«x»], none⟩ [(.ite (.app (.var «pair?») [(.var «x»)]) (.letv [.mk [«t»] (.app (.var «$cdr») [(.var «x»)])] [(.ite (.app
  (.var «pair?») [(.var «t»)]) (.letv [.mk [«t»] (.app (.var «$car») [(.var «t»)])] [(.ite (.app (.var «pair?») [(.var «t»)]) (.letv [.mk [«t»] (.app (.var
  «$car») [(.var «t»)])] [(.ite (.app (.var «pair?») [(.var «t»)]) (.app (.var «$car») [(.var «t»)]) (.app (.var «oops!») [(.var «x»)]))]) (.app (.var «oops!»)
  [(.var «x»)]))]) (.app (.var «oops!») [(.var «x»)]))]) (.app (.var «oops!») [(.var «x»)]))])]))

/-- define caadar (prelude.min:253-269) -/
def prelude_24 : E := (.define [«caadar»] (.letv [.mk [«oops!»] (.lam ⟨[«x»], none⟩ [(.app (.var «raise-argument-error») [(.quote (.sym «caadar»)), (.lit
  (.const 13)), (.var «x»)])])] [(.lam ⟨[«x»], none⟩ [(.ite (.app (.var «pair?») [(.var «x»)]) (.letv [.mk [«t»] (.app (.var «$car») [(.var «x»)])] [(.ite (.app
  (.var «pair?») [(.var «t»)]) (.letv [.mk [«t»] (.app (.var «$cdr») [(.var «t»)])] [(.ite (.app (.var «pair?») [(.var «t»)]) (.letv [.mk [«t»] (.app (.var
  «$car») [(.var «t»)])] [(.ite (.app (.var «pair?») [(.var «t»)]) (.app (.var «$car») [(.var «t»)]) (.app (.var «oops!») [(.var «x»)]))]) (.app (.var «oops!»)
  [(.var «x»)]))]) (.app (.var «oops!») [(.var «x»)]))]) (.app (.var «oops!») [(.var «x»)]))])]))

/-- define caaddr (prelude.min:271-287) -/
def prelude_25 : E := (.define [«caaddr»] (.letv [.mk [«oops!»] (.lam ⟨[«x»], none⟩ [(.app (.var «raise-argument-error») [(.quote (.sym «caaddr»)), (.lit
  (.const 13)), (.var «x»)])])] [(.lam ⟨[«x»], none⟩ [(.ite (.app (.var «pair?») [(.var «x»)]) (.letv [.mk [«t»] (.app (.var «$cdr») [(.var «x»)])] [(.ite (.app
  (.var «pair?») [(.var «t»)]) (.letv [.mk [«t»] (.app (.var «$cdr») [(.var «t»)])] [(.ite (.app (.var «pair?») [(.var «t»)]) (.letv [.mk [«t»] (.app (.var
  «$car») [(.var «t»)])] [(.ite (.app (.var «pair?») [(.var «t»)]) (.app (.var «$car») [(.var «t»)]) (.app (.var «oops!») [(.var «x»)]))]) (.app (.var «oops!»)
  [(.var «x»)]))]) (.app (.var «oops!») [(.var «x»)]))]) (.app (.var «oops!») [(.var «x»)]))])]))

/-- define cadaar (prelude.min:289-305) -/
def prelude_26 : E := (.define [«cadaar»] (.letv [.mk [«oops!»] (.lam ⟨[«x»], none⟩ [(.app (.var «raise-argument-error») [(.quote (.sym «cadaar»)), (.lit
  (.const 14)), (.var «x»)])])] [(.lam ⟨[«x»], none⟩ [(.ite (.app (.var «pair?») [(.var «x»)]) (.letv [.mk [«t»] (.app (.var «$car») [(.var «x»)])] [(.ite (.app
  (.var «pair?») [(.var «t»)]) (.letv [.mk [«t»] (.app (.var «$car») [(.var «t»)])] [(.ite (.app (.var «pair?») [(.var «t»)]) (.letv [.mk [«t»] (.app (.var
  «$cdr») [(.var «t»)])] [(.ite (.app (.var «pair?») [(.var «t»)]) (.app (.var «$car») [(.var «t»)]) (.app (.var «oops!») [(.var «x»)]))]) (.app (.var «oops!»)
  [(.var «x»)]))]) (.app (.var «oops!») [(.var «x»)]))]) (.app (.var «oops!») [(.var «x»)]))])]))

/-- define cadadr (prelude.min:307-323) -/
def prelude_27 : E := (.define [«cadadr»] (.letv [.mk [«oops!»] (.lam ⟨[«x»], none⟩ [(.app (.var «raise-argument-error») [(.quote (.sym «cadadr»)), (.lit
  (.const 15)), (.var «x»)])])] [(.lam ⟨[«x»], none⟩ [(.ite (.app (.var «pair?») [(.var «x»)]) (.letv [.mk [«t»] (.app (.var «$cdr») [(.var «x»)])] [(.ite (.app
  (.var «pair?») [(.var «t»)]) (.letv [.mk [«t»] (.app (.var «$car») [(.var «t»)])] [(.ite (.app (.var «pair?») [(.var «t»)]) (.letv [.mk [«t»] (.app (.var
  «$cdr») [(.var «t»)])] [(.ite (.app (.var «pair?») [(.var «t»)]) (.app (.var «$car») [(.var «t»)]) (.app (.var «oops!») [(.var «x»)]))]) (.app (.var «oops!»)
  [(.var «x»)]))]) (.app (.var «oops!») [(.var «x»)]))]) (.app (.var «oops!») [(.var «x»)]))])]))

/-- define caddar (prelude.min:325-341) -/
def prelude_28 : E := (.define [«caddar»] (.letv [.mk [«oops!»] (.lam ⟨[«x»], none⟩ [(.app (.var «raise-argument-error») [(.quote (.sym «caddar»)), (.lit
  (.const 16)), (.var «x»)])])] [(.lam ⟨[«x»], none⟩ [(.ite (.app (.var «pair?») [(.var «x»)]) (.letv [.mk [«t»] (.app (.var «$car») [(.var «x»)])] [(.ite (.app
  (.var «pair?») [(.var «t»)]) (.letv [.mk [«t»] (.app (.var «$cdr») [(.var «t»)])] [(.ite (.app (.var «pair?») [(.var «t»)]) (.letv [.mk [«t»] (.app (.var
  «$cdr») [(.var «t»)])] [(.ite (.app (.var «pair?») [(.var «t»)]) (.app (.var «$car») [(.var «t»)]) (.app (.var «oops!») [(.var «x»)]))]) (.app (.var «oops!»)
  [(.var «x»)]))]) (.app (.var «oops!») [(.var «x»)]))]) (.app (.var «oops!») [(.var «x»)]))])]))

/-- define cadddr (prelude.min:343-359) -/
def prelude_29 : E := (.define [«cadddr»] (.letv [.mk [«oops!»] (.lam ⟨[«x»], none⟩ [(.app (.var «raise-argument-error») [(.quote (.sym «cadddr»)), (.lit
  (.const 17)), (.var «x»)])])] [(.lam ⟨[«x»], none⟩ [(.ite (.app (.var «pair?») [(.var «x»)]) (.letv [.mk [«t»] (.app (.var «$cdr») [(.var «x»)])] [(.ite (.app
  (.var «pair?») [(.var «t»)]) (.letv [.mk [«t»] (.app (.var «$cdr») [(.var «t»)])] [(.ite (.app (.var «pair?») [(.var «t»)]) (.letv [.mk [«t»] (.app (.var
  «$cdr») [(.var «t»)])] [(.ite (.app (.var «pair?») [(.var «t»)]) (.app (.var «$car») [(.var «t»)]) (.app (.var «oops!») [(.var «x»)]))]) (.app (.var «oops!»)
  [(.var «x»)]))]) (.app (.var «oops!») [(.var «x»)]))]) (.app (.var «oops!») [(.var «x»)]))])]))

/-- define cdaaar (prelude.min:361-377) -/
def prelude_30 : E := (.define [«cdaaar»] (.letv [.mk [«oops!»] (.lam ⟨[«x»], none⟩ [(.app (.var «raise-argument-error») [(.quote (.sym «cdaaar»)), (.lit
  (.const 11)), (.var «x»)])])] [(.lam ⟨[«x»], none⟩ [(.ite (.app (.var «pair?») [(.var «x»)]) (.letv [.mk [«t»] (.app (.var «$car») [(.var «x»)])] [(.ite (.app
  (.var «pair?») [(.var «t»)]) (.letv [.mk [«t»] (.app (.var «$car») [(.var «t»)])] [(.ite (.app (.var «pair?») [(.var «t»)]) (.letv [.mk [«t»] (.app (.var
  «$car») [(.var «t»)])] [(.ite (.app (.var «pair?») [(.var «t»)]) (.app (.var «$cdr») [(.var «t»)]) (.app (.var «oops!») [(.var «x»)]))]) (.app (.var «oops!»)
  [(.var «x»)]))]) (.app (.var «oops!») [(.var «x»)]))]) (.app (.var «oops!») [(.var «x»)]))])]))

/-- define cdaadr (prelude.min:379-395) -/
def prelude_31 : E := (.define [«cdaadr»] (.letv [.mk [«oops!»] (.lam ⟨[«x»], none⟩ [(.app (.var «raise-argument-error») [(.quote (.sym «cdaadr»)), (.lit
  (.const 12)), (.var «x»)])])] [(.lam ⟨[«x»], none⟩ [(.ite (.app (.var «pair?») [(.var «x»)]) (.letv [.mk [«t»] (.app (.var «$cdr») [(.var «x»)])] [(.ite (.app
  (.var «pair?») [(.var «t»)]) (.letv [.mk [«t»] (.app (.var «$car») [(.var «t»)])] [(.ite (.app (.var «pair?») [(.var «t»)]) (.letv [.mk [«t»] (.app (.var
  «$car») [(.var «t»)])] [(.ite (.app (.var «pair?») [(.var «t»)]) (.app (.var «$cdr») [(.var «t»)]) (.app (.var «oops!») [(.var «x»)]))]) (.app (.var «oops!»)
  [(.var «x»)]))]) (.app (.var «oops!») [(.var «x»)]))]) (.app (.var «oops!») [(.var «x»)]))])]))

/-- define cdadar (prelude.min:397-413) -/
def prelude_32 : E := (.define [«cdadar»] (.letv [.mk [«oops!»] (.lam ⟨[«x»], none⟩ [(.app (.var «raise-argument-error») [(.quote (.sym «cdadar»)), (.lit
  (.const 13)), (.var «x»)])])] [(.lam ⟨[«x»], none⟩ [(.ite (.app (.var «pair?») [(.var «x»)]) (.letv [.mk [«t»] (.app (.var «$car») [(.var «x»)])] [(.ite (.app
  (.var «pair?») [(.var «t»)]) (.letv [.mk [«t»] (.app (.var «$cdr») [(.var «t»)])] [(.ite (.app (.var «pair?») [(.var «t»)]) (.letv [.mk [«t»] (.app (.var
  «$car») [(.var «t»)])] [(.ite (.app (.var «pair?») [(.var «t»)]) (.app (.var «$cdr») [(.var «t»)]) (.app (.var «oops!») [(.var «x»)]))]) (.app (.var «oops!»)
  [(.var «x»)]))]) (.app (.var «oops!») [(.var «x»)]))]) (.app (.var «oops!») [(.var «x»)]))])]))

/-- define cdaddr (prelude.min:415-431) -/
def prelude_33 : E := (.define [«cdaddr»] (.letv [.mk [«oops!»] (.lam ⟨[«x»], none⟩ [(.app (.var «raise-argument-error») [(.quote (.sym «cdaddr»)), (.lit
  (.const 13)), (.var «x»)])])] [(.lam ⟨[«x»], none⟩ [(.ite (.app (.var «pair?») [(.var «x»)]) (.letv [.mk [«t»] (.app (.var «$cdr») [(.var «x»)])] [(.ite (.app
  (.var «pair?») [(.var «t»)]) (.letv [.mk [«t»] (.app (.var «$cdr») [(.var «t»)])] [(.ite (.app (.var «pair?») [(.var «t»)]) (.letv [.mk [«t»] (.app (.var
  «$car») [(.var «t»)])] [(.ite (.app (.var «pair?») [(.var «t»)]) (.app (.var «$cdr») [(.var «t»)]) (.app (.var «oops!») [(.var «x»)]))]) (.app (.var «oops!»)
  [(.var «x»)]))]) (.app (.var «oops!») [(.var «x»)]))]) (.app (.var «oops!») [(.var «x»)]))])]))

/-- define cddaar (prelude.min:433-449) -/
def prelude_34 : E := (.define [«cddaar»] (.letv [.mk [«oops!»] (.lam ⟨[«x»], none⟩ [(.app (.var «raise-argument-error») [(.quote (.sym «cddaar»)), (.lit
  (.const 14)), (.var «x»)])])] [(.lam ⟨[«x»], none⟩ [(.ite (.app (.var «pair?») [(.var «x»)]) (.letv [.mk [«t»] (.app (.var «$car») [(.var «x»)])] [(.ite (.app
  (.var «pair?») [(.var «t»)]) (.letv [.mk [«t»] (.app (.var «$car») [(.var «t»)])] [(.ite (.app (.var «pair?») [(.var «t»)]) (.letv [.mk [«t»] (.app (.var
  «$cdr») [(.var «t»)])] [(.ite (.app (.var «pair?») [(.var «t»)]) (.app (.var «$cdr») [(.var «t»)]) (.app (.var «oops!») [(.var «x»)]))]) (.app (.var «oops!»)
  [(.var «x»)]))]) (.app (.var «oops!») [(.var «x»)]))]) (.app (.var «oops!») [(.var «x»)]))])]))

/-- define cddadr (prelude.min:451-467) -/
def prelude_35 : E := (.define [«cddadr»] (.letv [.mk [«oops!»] (.lam ⟨[«x»], none⟩ [(.app (.var «raise-argument-error») [(.quote (.sym «cddadr»)), (.lit
  (.const 15)), (.var «x»)])])] [(.lam ⟨[«x»], none⟩ [(.ite (.app (.var «pair?») [(.var «x»)]) (.letv [.mk [«t»] (.app (.var «$cdr») [(.var «x»)])] [(.ite (.app
  (.var «pair?») [(.var «t»)]) (.letv [.mk [«t»] (.app (.var «$car») [(.var «t»)])] [(.ite (.app (.var «pair?») [(.var «t»)]) (.letv [.mk [«t»] (.app (.var
  «$cdr») [(.var «t»)])] [(.ite (.app (.var «pair?») [(.var «t»)]) (.app (.var «$cdr») [(.var «t»)]) (.app (.var «oops!») [(.var «x»)]))]) (.app (.var «oops!»)
  [(.var «x»)]))]) (.app (.var «oops!») [(.var «x»)]))]) (.app (.var «oops!») [(.var «x»)]))])]))

/-- define cdddar (prelude.min:469-485) -/
def prelude_36 : E := (.define [«cdddar»] (.letv [.mk [«oops!»] (.lam ⟨[«x»], none⟩ [(.app (.var «raise-argument-error») [(.quote (.sym «cdddar»)), (.lit
  (.const 16)), (.var «x»)])])] [(.lam ⟨[«x»], none⟩ [(.ite (.app (.var «pair?») [(.var «x»)]) (.letv [.mk [«t»] (.app (.var «$car») [(.var «x»)])] [(.ite (.app
  (.var «pair?») [(.var «t»)]) (.letv [.mk [«t»] (.app (.var «$cdr») [(.var «t»)])] [(.ite (.app (.var «pair?») [(.var «t»)]) (.letv [.mk [«t»] (.app (.var
  «$cdr») [(.var «t»)])] [(.ite (.app (.var «pair?») [(.var «t»)]) (.app (.var «$cdr») [(.var «t»)]) (.app (.var «oops!») [(.var «x»)]))]) (.app (.var «oops!»)
  [(.var «x»)]))]) (.app (.var «oops!») [(.var «x»)]))]) (.app (.var «oops!») [(.var «x»)]))])]))

/-- define cddddr (prelude.min:487-503) -/
def prelude_37 : E := (.define [«cddddr»] (.letv [.mk [«oops!»] (.lam ⟨[«x»], none⟩ [(.app (.var «raise-argument-error») [(.quote (.sym «cddddr»)), (.lit
  (.const 17)), (.var «x»)])])] [(.lam ⟨[«x»], none⟩ [(.ite (.app (.var «pair?») [(.var «x»)]) (.letv [.mk [«t»] (.app (.var «$cdr») [(.var «x»)])] [(.ite (.app
  (.var «pair?») [(.var «t»)]) (.letv [.mk [«t»] (.app (.var «$cdr») [(.var «t»)])] [(.ite (.app (.var «pair?») [(.var «t»)]) (.letv [.mk [«t»] (.app (.var
  «$cdr») [(.var «t»)])] [(.ite (.app (.var «pair?») [(.var «t»)]) (.app (.var «$cdr») [(.var «t»)]) (.app (.var «oops!») [(.var «x»)]))]) (.app (.var «oops!»)
  [(.var «x»)]))]) (.app (.var «oops!») [(.var «x»)]))]) (.app (.var «oops!») [(.var «x»)]))])]))

/-- define set-car! (prelude.min:505-509) -/
def prelude_38 : E := (.define [«set-car!»] (.lam ⟨[«p», «x»], none⟩ [(.ite (.app (.var «pair?») [(.var «p»)]) (.app (.var «$set-car!») [(.var «p»), (.var
  «x»)]) (.app (.var «raise-argument-error») [(.quote (.sym «set-car!»)), (.lit (.const 5)), (.var «p»)]))]))

/-- define set-cdr! (prelude.min:511-515) -/
def prelude_39 : E := (.define [«set-cdr!»] (.lam ⟨[«p», «x»], none⟩ [(.ite (.app (.var «pair?») [(.var «p»)]) (.app (.var «$set-cdr!») [(.var «p»), (.var
  «x»)]) (.app (.var «raise-argument-error») [(.quote (.sym «set-cdr!»)), (.lit (.const 5)), (.var «p»)]))]))

/-- define integer? (prelude.min:521-521) -/
def prelude_40 : E := (.define [«integer?»] (.var «fixnum?»))

/-- define number? (prelude.min:522-522) -/
def prelude_41 : E := (.define [«number?»] (.var «fixnum?»))

/-- define = > < >= <= (prelude.min:524-558) -/
def prelude_42 : E := (.define [«=», «>», «<», «>=», «<=»] (.letrecv [.mk [«non-number-error»] (.lam ⟨[«who», «v»], none⟩ [(.app (.var «raise-argument-error»)
  [(.var «who»), (.lit (.const 18)), (.var «v»)])]), .mk [«go»] (.lam ⟨[«cmp», «who»], none⟩ [(.clam [.mk ⟨[«x»], none⟩ [(.ite (.app (.var «number?») [(.var
  «x»)]) (.var «x») (.app (.var «non-number-error») [(.var «who»), (.var «x»)]))], .mk ⟨[«x», «y»], none⟩ [(.ite (.app (.var «number?») [(.var «x»)]) (.ite
  (.app (.var «number?») [(.var «y»)]) (.app (.var «cmp») [(.var «x»), (.var «y»)]) (.app (.var «non-number-error») [(.var «who»), (.var «y»)])) (.app (.var
  «non-number-error») [(.var «who»), (.var «x»)]))], .mk ⟨[«x»], some «rest»⟩ [(.ite (.app (.var «number?») [(.var «x»)]) (.letrecv [.mk [«loop»] (.lam ⟨[«x»,
  «xs»], none⟩ [(.ite (.app (.var «null?») [(.var «xs»)]) (.lit .tru) (.ite (.app (.var «number?») [(.app (.var «$car») [(.var «xs»)])]) (.ite (.app (.var
  «cmp») [(.var «x»), (.app (.var «$car») [(.var «xs»)])]) (.app (.var «loop») [(.app (.var «$car») [(.var «xs»)]), (.app (.var «$cdr») [(.var «xs»)])]) (.lit
  .fls)) (.app (.var «non-number-error») [(.var «who»), (.app (.var «$car») [(.var «xs»)])])))])] [(.app (.var «loop») [(.var «x»), (.var «rest»)])]) (.app
  (.var «non-number-error») [(.var «who»), (.var «x»)]))]])])] [(.app (.var .values) [(.app (.var «go») [(.var «$fx2=»), (.quote (.sym «=»))]), (.app (.var
  «go») [(.var «$fx2>»), (.quote (.sym «>»))]), (.app (.var «go») [(.var «$fx2<»), (.quote (.sym «<»))]), (.app (.var «go») [(.var «$fx2>=»), (.quote (.sym
  «>=»))]), (.app (.var «go») [(.var «$fx2<=»), (.quote (.sym «<=»))])])]))

/-- define negative-integer? (prelude.min:560-561) -/
def prelude_43 : E := (.define [«negative-integer?»] (.lam ⟨[«x»], none⟩ [(.ite (.app (.var «integer?») [(.var «x»)]) (.app (.var «<») [(.var «x»), (.lit
  (.const 19))]) (.lit .fls))]))

/-- define non-negative-integer? (prelude.min:563-564) -/
def prelude_44 : E := (.define [«non-negative-integer?»] (.lam ⟨[«x»], none⟩ [(.ite (.app (.var «integer?») [(.var «x»)]) (.app (.var «>=») [(.var «x»), (.lit
  (.const 19))]) (.lit .fls))]))

/-- define positive-integer? (prelude.min:566-567) -/
def prelude_45 : E := (.define [«positive-integer?»] (.lam ⟨[«x»], none⟩ [(.ite (.app (.var «integer?») [(.var «x»)]) (.app (.var «>») [(.var «x»), (.lit
  (.const 19))]) (.lit .fls))]))

/-- define zero? (prelude.min:569-570) -/
def prelude_46 : E := (.define [«zero?»] (.lam ⟨[«x»], none⟩ [(.app (.var «=») [(.var «x»), (.lit (.const 19))])]))

/-- define negative? (prelude.min:573-573) -/
def prelude_47 : E := (.define [«negative?»] (.var «negative-integer?»))

/-- define non-negative? (prelude.min:574-574) -/
def prelude_48 : E := (.define [«non-negative?»] (.var «non-negative-integer?»))

/-- define positive? (prelude.min:575-575) -/
def prelude_49 : E := (.define [«positive?»] (.var «positive-integer?»))

/-- define + - * / (prelude.min:577-694) -/
def prelude_50 : E := (.define [«+», «-», «*», «/»] (.letv [.mk [«non-number-error»] (.lam ⟨[«who», «v»], none⟩ [(.app (.var «raise-argument-error») [(.var
  «who»), (.lit (.const 18)), (.var «v»)])]), .mk [«divide-0-error»] (.lam ⟨[«who», «v»], none⟩ [(.app (.var «error») [(.var «who»), (.lit (.const 20)), (.var
  «v»)])])] [(.app (.var .values) [(.clam [.mk ⟨[], none⟩ [(.lit (.const 19))], .mk ⟨[«x»], none⟩ [(.ite (.app (.var «number?») [(.var «x»)]) (.var «x») (.app
  (.var «non-number-error») [(.quote (.sym «+»)), (.var «x»)]))], .mk ⟨[«x», «y»], none⟩ [(.ite (.app (.var «number?») [(.var «x»)]) (.ite (.app (.var
  «number?») [(.var «y»)]) (.app (.var «$fx2+») [(.var «x»), (.var «y»)]) (.app (.var «non-number-error») [(.quote (.sym «+»)), (.var «y»)])) (.app (.var
  «non-number-error») [(.quote (.sym «+»)), (.var «x»)]))], .mk ⟨[«x», «y»], some «rest»⟩ [(.ite (.app (.var «number?») [(.var «x»)]) (.ite (.app (.var
  «number?») [(.var «y»)]) (.letrecv [.mk [«loop»] (.lam ⟨[«x», «xs»], none⟩ [(.ite (.app (.var «null?») [(.var «xs»)]) (.var «x») (.ite (.app (.var «number?»)
  [(.app (.var «$car») [(.var «xs»)])]) (.app (.var «loop») [(.app (.var «$fx2+») [(.var «x»), (.app (.var «$car») [(.var «xs»)])]), (.app (.var «$cdr») [(.var
  «xs»)])]) (.app (.var «non-number-error») [(.quote (.sym «+»)), (.app (.var «$car») [(.var «xs»)])])))])] [(.app (.var «loop») [(.app (.var «$fx2+») [(.var
  «x»), (.var «y»)]), (.var «rest»)])]) (.app (.var «non-number-error») [(.quote (.sym «+»)), (.var «y»)])) (.app (.var «non-number-error») [(.quote (.sym
  «+»)), (.var «x»)]))]]), (.clam [.mk ⟨[«x»], none⟩ [(.ite (.app (.var «number?») [(.var «x»)]) (.app (.var «$fx2-») [(.lit (.const 19)), (.var «x»)]) (.app
  (.var «non-number-error») [(.quote (.sym «-»)), (.var «x»)]))], .mk ⟨[«x», «y»], none⟩ [(.ite (.app (.var «number?») [(.var «x»)]) (.ite (.app (.var
  «number?») [(.var «y»)]) (.app (.var «$fx2-») [(.var «x»), (.var «y»)]) (.app (.var «non-number-error») [(.quote (.sym «-»)), (.var «y»)])) (.app (.var
  «non-number-error») [(.quote (.sym «-»)), (.var «x»)]))], .mk ⟨[«x», «y»], some «rest»⟩ [(.ite (.app (.var «number?») [(.var «x»)]) (.ite (.app (.var
  «number?») [(.var «y»)]) (.letrecv [.mk [«loop»] (.lam ⟨[«x», «xs»], none⟩ [(.ite (.app (.var «null?») [(.var «xs»)]) (.var «x») (.ite (.app (.var «number?»)
  [(.app (.var «$car») [(.var «xs»)])]) (.app (.var «loop») [(.app (.var «$fx2-») [(.var «x»), (.app (.var «$car») [(.var «xs»)])]), (.app (.var «$cdr») [(.var
  «xs»)])]) (.app (.var «non-number-error») [(.quote (.sym «-»)), (.app (.var «$car») [(.var «xs»)])])))])] [(.app (.var «loop») [(.app (.var «$fx2-») [(.var
  «x»), (.var «y»)]), (.var «rest»)])]) (.app (.var «non-number-error») [(.quote (.sym «-»)), (.var «y»)])) (.app (.var «non-number-error») [(.quote (.sym
  «-»)), (.var «x»)]))]]), (.clam [.mk ⟨[], none⟩ [(.lit (.const 21))], .mk ⟨[«x»], none⟩ [(.ite (.app (.var «number?») [(.var «x»)]) (.var «x») (.app (.var
  «non-number-error») [(.quote (.sym «*»)), (.var «x»)]))], .mk ⟨[«x», «y»], none⟩ [(.ite (.app (.var «number?») [(.var «x»)]) (.ite (.app (.var «number?»)
  [(.var «y»)]) (.app (.var «$fx2*») [(.var «x»), (.var «y»)]) (.app (.var «non-number-error») [(.quote (.sym «*»)), (.var «y»)])) (.app (.var
  «non-number-error») [(.quote (.sym «*»)), (.var «x»)]))], .mk ⟨[«x», «y»], some «rest»⟩ [(.ite (.app (.var «number?») [(.var «x»)]) (.ite (.app (.var
  «number?») [(.var «y»)]) (.letrecv [.mk [«loop»] (.lam ⟨[«x», «xs»], none⟩ [(.ite (.app (.var «null?») [(.var «xs»)]) (.var «x») (.ite (.app (.var «number?»)
  [(.app (.var «$car») [(.var «xs»)])]) (.app (.var «loop») [(.app (.var «$fx2*») [(.var «x»), (.app (.var «$car») [(.var «xs»)])]), (.app (.var «$cdr») [(.var
  «xs»)])]) (.app (.var «non-number-error») [(.quote (.sym «*»)), (.app (.var «$car») [(.var «xs»)])])))])] [(.app (.var «loop») [(.app (.var «$fx2*») [(.var
  «x»), (.var «y»)]), (.var «rest»)])]) (.app (.var «non-number-error») [(.quote (.sym «*»)), (.var «x»)])) (.app (.var «non-number-error») [(.quote (.sym
  «*»)), (.var «y»)]))]]), (.clam [.mk ⟨[«x»], none⟩ [(.ite (.app (.var «number?») [(.var «x»)]) (.ite (.app (.var «zero?») [(.var «x»)]) (.app (.var
  «division-0-error») [(.quote (.sym «/»)), (.var «x»)]) (.app (.var «$fx2/») [(.lit (.const 21)), (.var «x»)])) (.app (.var «non-number-error») [(.quote (.sym
  «/»)), (.var «x»)]))], .mk ⟨[«x», «y»], none⟩ [(.ite (.app (.var «number?») [(.var «x»)]) (.ite (.app (.var «number?») [(.var «y»)]) (.ite (.app (.var
  «zero?») [(.var «y»)]) (.app (.var «division-0-error») [(.quote (.sym «/»)), (.var «y»)]) (.app (.var «$fx2/») [(.var «x»), (.var «y»)])) (.app (.var
  «non-number-error») [(.quote (.sym «-»)), (.var «y»)])) (.app (.var «non-number-error») [(.quote (.sym «-»)), (.var «x»)]))], .mk ⟨[«x», «y»], some «rest»⟩
  [(.ite (.app (.var «number?») [(.var «x»)]) (.ite (.app (.var «number?») [(.var «y»)]) (.ite (.app (.var «zero?») [(.var «y»)]) (.app (.var
  «division-0-error») [(.quote (.sym «/»)), (.var «y»)]) (.letrecv [.mk [«loop»] (.lam ⟨[«x», «xs»], none⟩ [(.ite (.app (.var «null?») [(.var «xs»)]) (.var «x»)
  (.ite (.app (.var «number?») [(.app (.var «$car») [(.var «xs»)])]) (.ite (.app (.var «zero?») [(.app (.var «$car») [(.var «xs»)])]) (.app (.var
  «division-0-error») [(.quote (.sym «/»)), (.app (.var «$car») [(.var «xs»)])]) (.app (.var «loop») [(.app (.var «$fx2-») [(.var «x»), (.app (.var «$car»)
  [(.var «xs»)])]), (.app (.var «$cdr») [(.var «xs»)])])) (.app (.var «non-number-error») [(.quote (.sym «-»)), (.app (.var «$car») [(.var «xs»)])])))])] [(.app
  (.var «loop») [(.app (.var «$fx2-») [(.var «x»), (.var «y»)]), (.var «rest»)])])) (.app (.var «non-number-error») [(.quote (.sym «-»)), (.var «y»)])) (.app
  (.var «non-number-error») [(.quote (.sym «-»)), (.var «x»)]))]])])]))

/-- define add1 (prelude.min:696-700) -/
def prelude_51 : E := (.define [«add1»] (.lam ⟨[«x»], none⟩ [(.ite (.app (.var «number?») [(.var «x»)]) (.app (.var «$fx2+») [(.var «x»), (.lit (.const 21))])
  (.app (.var «raise-argument-error») [(.quote (.sym «add1»)), (.lit (.const 18)), (.var «x»)]))]))

/-- define sub1 (prelude.min:702-706) -/
def prelude_52 : E := (.define [«sub1»] (.lam ⟨[«x»], none⟩ [(.ite (.app (.var «number?») [(.var «x»)]) (.app (.var «$fx2-») [(.var «x»), (.lit (.const 21))])
  (.app (.var «raise-argument-error») [(.quote (.sym «sub1»)), (.lit (.const 18)), (.var «x»)]))]))

/-- define remainder (prelude.min:708-714) -/
def prelude_53 : E := (.define [«remainder»] (.lam ⟨[«x», «y»], none⟩ [(.ite (.app (.var «number?») [(.var «x»)]) (.ite (.app (.var «number?») [(.var «y»)])
  (.app (.var «$fxremainder») [(.var «x»), (.var «y»)]) (.app (.var «raise-argument-error») [(.quote (.sym «remainder»)), (.lit (.const 18)), (.var «y»)]))
  (.app (.var «raise-argument-error») [(.quote (.sym «remainder»)), (.lit (.const 18)), (.var «x»)]))]))

/-- define modulo (prelude.min:716-722) -/
def prelude_54 : E := (.define [«modulo»] (.lam ⟨[«x», «y»], none⟩ [(.ite (.app (.var «number?») [(.var «x»)]) (.ite (.app (.var «number?») [(.var «y»)]) (.app
  (.var «$fxmodulo») [(.var «x»), (.var «y»)]) (.app (.var «raise-argument-error») [(.quote (.sym «modulo»)), (.lit (.const 18)), (.var «y»)])) (.app (.var
  «raise-argument-error») [(.quote (.sym «modulo»)), (.lit (.const 18)), (.var «x»)]))]))

/-- define call-with-values (prelude.min:727-729) -/
def prelude_55 : E := (.define [.callWithValues] (.lam ⟨[«producer», «consumer»], none⟩ [(.app (.var .callWithValues) [(.var «producer»), (.var «consumer»)])]))

/-- define procedure-arity? (prelude.min:731-752) -/
def prelude_56 : E := (.define [«procedure-arity?»] (.lam ⟨[«x»], none⟩ [(.ite (.app (.var «non-negative-integer?») [(.var «x»)]) (.lit .tru) (.ite (.app (.var
  «pair?») [(.var «x»)]) (.ite (.app (.var «non-negative-integer?») [(.app (.var «car») [(.var «x»)])]) (.letrecv [.mk [«loop»] (.lam ⟨[«x», «p»], none⟩ [(.ite
  (.app (.var «null?») [(.var «x»)]) (.lit .tru) (.ite (.var «x») (.ite (.app (.var «pair?») [(.var «x»)]) (.ite (.app (.var «non-negative-integer?») [(.app
  (.var «car») [(.var «x»)])]) (.ite (.app (.var «>») [(.app (.var «car») [(.var «x»)]), (.var «p»)]) (.app (.var «loop») [(.app (.var «cdr») [(.var «x»)]),
  (.app (.var «car») [(.var «x»)])]) (.lit .fls)) (.lit .fls)) (.lit .fls)) (.lit .tru)))])] [(.app (.var «loop») [(.app (.var «cdr») [(.var «x»)]), (.app (.var
  «car») [(.var «x»)])])]) (.lit .fls)) (.lit .fls)))]))

/-- define procedure-arity (prelude.min:754-758) -/
def prelude_57 : E := (.define [«procedure-arity»] (.lam ⟨[«p»], none⟩ [(.ite (.app (.var «procedure?») [(.var «p»)]) (.app (.var «$procedure-arity») [(.var
  «p»)]) (.app (.var «raise-argument-error») [(.quote (.sym «procedure-arity»)), (.lit (.const 22)), (.var «p»)]))]))

/-- define procedure-name (prelude.min:760-764) -/
def prelude_58 : E := (.define [«procedure-name»] (.lam ⟨[«p»], none⟩ [(.ite (.app (.var «procedure?») [(.var «p»)]) (.app (.var «$procedure-name») [(.var
  «p»)]) (.app (.var «raise-argument-error») [(.quote (.sym «procedure-name»)), (.lit (.const 22)), (.var «p»)]))]))

/-- define procedure-rename (prelude.min:766-772) -/
def prelude_59 : E := (.define [«procedure-rename»] (.lam ⟨[«p», «id»], none⟩ [(.ite (.app (.var «procedure?») [(.var «p»)]) (.ite (.app (.var «symbol?») [(.var
  «id»)]) (.app (.var «$procedure-rename») [(.var «p»), (.var «id»)]) (.app (.var «raise-argument-error») [(.quote (.sym «procedure-rename»)), (.lit (.const
  23)), (.var «id»)])) (.app (.var «raise-argument-error») [(.quote (.sym «procedure-rename»)), (.lit (.const 22)), (.var «p»)]))]))

/-- define char->integer (prelude.min:777-781) -/
def prelude_60 : E := (.define [«char->integer»] (.lam ⟨[«x»], none⟩ [(.ite (.app (.var «char?») [(.var «x»)]) (.app (.var «$char->integer») [(.var «x»)]) (.app
  (.var «raise-argument-error») [(.quote (.sym «char->integer»)), (.lit (.const 24)), (.var «x»)]))]))

/-- define integer->char (prelude.min:783-787) -/
def prelude_61 : E := (.define [«integer->char»] (.lam ⟨[«x»], none⟩ [(.ite (.app (.var «integer?») [(.var «x»)]) (.app (.var «$integer->char») [(.var «x»)])
  (.app (.var «raise-argument-error») [(.quote (.sym «integer->char»)), (.lit (.const 25)), (.var «x»)]))]))

/-- define string list->string (prelude.min:792-806) -/
def prelude_62 : E := (.define [«string», «list->string»] (.letv [.mk [«check-arg!»] (.lam ⟨[«who», «xs»], none⟩ [(.app (.var «for-each») [(.lam ⟨[«x»], none⟩
  [(.ite (.app (.var «char?») [(.var «x»)]) (.app (.var «void») []) (.app (.var «raise-argument-error») [(.var «who»), (.lit (.const 24)), (.var «x»)]))]),
  (.var «xs»)])])] [(.app (.var .values) [(.lam ⟨[], some «args»⟩ [(.app (.var «check-arg!») [(.quote (.sym «string»)), (.var «args»)]), (.app (.var
  «$list->string») [(.var «args»)])]), (.lam ⟨[«xs»], none⟩ [(.app (.var «check-arg!») [(.quote (.sym «list->string»)), (.var «xs»)]), (.app (.var
  «$list->string») [(.var «xs»)])])])]))

/-- define make-string (prelude.min:808-822) -/
def prelude_63 : E := (.define [«make-string»] (.letv [.mk [«check-args!»] (.lam ⟨[«n», «c»], none⟩ [(.ite (.app (.var «non-negative-integer?») [(.var «n»)])
  (.ite (.app (.var «char?») [(.var «c»)]) (.app (.var «void») []) (.app (.var «raise-argument-error») [(.quote (.sym «make-string»)), (.lit (.const 24)), (.var
  «init»)])) (.app (.var «raise-argument-error») [(.quote (.sym «make-string»)), (.lit (.const 26)), (.var «len»)]))])] [(.clam [.mk ⟨[«n»], none⟩ [(.app (.var
  «check-args!») [(.var «n»), (.lit (.const 27))]), (.app (.var «$make-string») [(.var «n»), (.lit (.const 27))])], .mk ⟨[«n», «fill»], none⟩ [(.app (.var
  «check-args!») [(.var «n»), (.var «fill»)]), (.app (.var «$make-string») [(.var «n»), (.var «fill»)])]])]))

/-- define string-length (prelude.min:824-828) -/
def prelude_64 : E := (.define [«string-length»] (.lam ⟨[«s»], none⟩ [(.ite (.app (.var «string?») [(.var «s»)]) (.app (.var «$string-length») [(.var «s»)])
  (.app (.var «raise-argument-error») [(.quote (.sym «string-length»)), (.lit (.const 28)), (.var «s»)]))]))

/-- define string-ref (prelude.min:830-838) -/
def prelude_65 : E := (.define [«string-ref»] (.lam ⟨[«s», «idx»], none⟩ [(.ite (.app (.var «string?») [(.var «s»)]) (.ite (.app (.var «non-negative-integer?»)
  [(.var «idx»)]) (.ite (.app (.var «>=») [(.var «idx»), (.app (.var «$string-length») [(.var «s»)])]) (.app (.var «raise-range-error») [(.quote (.sym
  «string-ref»)), (.var «s»), (.lit (.const 29)), (.lit (.const 19)), (.app (.var «$string-length») [(.var «s»)]), (.var «idx»)]) (.app (.var «$string-ref»)
  [(.var «s»), (.var «idx»)])) (.app (.var «raise-argument-error») [(.quote (.sym «string-ref»)), (.lit (.const 26)), (.var «idx»)])) (.app (.var
  «raise-argument-error») [(.quote (.sym «string-ref»)), (.lit (.const 28)), (.var «s»)]))]))

/-- define string-set! (prelude.min:840-850) -/
def prelude_66 : E := (.define [«string-set!»] (.lam ⟨[«s», «idx», «c»], none⟩ [(.ite (.app (.var «string?») [(.var «s»)]) (.ite (.ite (.app (.var «integer?»)
  [(.var «idx»)]) (.app (.var «>=») [(.var «idx»), (.lit (.const 19))]) (.lit .fls)) (.ite (.app (.var «>=») [(.var «idx»), (.app (.var «$string-length») [(.var
  «s»)])]) (.app (.var «raise-range-error») [(.quote (.sym «string-set!»)), (.var «s»), (.lit (.const 29)), (.lit (.const 19)), (.app (.var «$string-length»)
  [(.var «s»)]), (.var «idx»)]) (.ite (.app (.var «char?») [(.var «c»)]) (.app (.var «$string-set!») [(.var «s»), (.var «idx»), (.var «c»)]) (.app (.var
  «raise-argument-error») [(.quote (.sym «string-set!»)), (.lit (.const 24)), (.var «c»)]))) (.app (.var «raise-argument-error») [(.quote (.sym «string-set!»)),
  (.lit (.const 26)), (.var «idx»)])) (.app (.var «raise-argument-error») [(.quote (.sym «string-set!»)), (.lit (.const 28)), (.var «s»)]))]))

/-- define string-append (prelude.min:852-886) -/
def prelude_67 : E := (.define [«string-append»] (.letv [.mk [«check-args!»] (.lam ⟨[«xs»], none⟩ [(.app (.var «for-each») [(.lam ⟨[«x»], none⟩ [(.ite (.app
  (.var «string?») [(.var «x»)]) (.app (.var «void») []) (.app (.var «raise-argument-error») [(.quote (.sym «string-append»)), (.lit (.const 28)), (.var
  «s»)]))]), (.var «xs»)])]), .mk [«sum-lengths»] (.lam ⟨[«xs»], none⟩ [(.letrecv [.mk [«loop»] (.lam ⟨[«xs», «len»], none⟩ [(.ite (.app (.var «null?») [(.var
  «xs»)]) (.var «len») (.app (.var «loop») [(.app (.var «$cdr») [(.var «xs»)]), (.app (.var «+») [(.var «len»), (.app (.var «$string-length») [(.app (.var
  «$car») [(.var «xs»)])])])]))])] [(.app (.var «loop») [(.var «xs»), (.lit (.const 19))])])])] [(.clam [.mk ⟨[], none⟩ [(.lit (.const 29))], .mk ⟨[«x»], none⟩
  [(.app (.var «check-args!») [(.app (.var «list») [(.var «x»)])]), (.var «x»)], .mk ⟨[«x»], some «xs»⟩ [(.letv [.mk [«xs»] (.app (.var «cons») [(.var «x»),
  (.var «xs»)])] [(.app (.var «check-args!») [(.var «xs»)]), (.letrecv [.mk [«s»] (.app (.var «$make-string») [(.app (.var «sum-lengths») [(.var «xs»)]), (.lit
  (.const 30))]), .mk [«loop»] (.lam ⟨[«xs», «i», «j»], none⟩ [(.ite (.app (.var «null?») [(.var «xs»)]) (.var «s») (.ite (.app (.var «>=») [(.var «j»), (.app
  (.var «$string-length») [(.app (.var «$car») [(.var «xs»)])])]) (.app (.var «loop») [(.app (.var «$cdr») [(.var «xs»)]), (.var «i»), (.lit (.const 19))])
  (.begin [(.app (.var «string-set!») [(.var «s»), (.var «i»), (.app (.var «string-ref») [(.app (.var «$car») [(.var «xs»)]), (.var «j»)])]), (.app (.var
  «loop») [(.var «xs»), (.app (.var «add1») [(.var «i»)]), (.app (.var «add1») [(.var «j»)])])])))])] [(.app (.var «loop») [(.var «xs»), (.lit (.const 19)),
  (.lit (.const 19))])])])]])]))

/-- define number->string (prelude.min:888-892) -/
def prelude_68 : E := (.define [«number->string»] (.lam ⟨[«n»], none⟩ [(.ite (.app (.var «number?») [(.var «n»)]) (.app (.var «$number->string») [(.var «n»)])
  (.app (.var «raise-argument-error») [(.quote (.sym «number->string»)), (.lit (.const 18)), (.var «n»)]))]))

/-- define string->number (prelude.min:894-898) -/
def prelude_69 : E := (.define [«string->number»] (.lam ⟨[«s»], none⟩ [(.ite (.app (.var «string?») [(.var «s»)]) (.app (.var «$string->number») [(.var «s»)])
  (.app (.var «raise-argument-error») [(.quote (.sym «string->number»)), (.lit (.const 28)), (.var «s»)]))]))

/-- define symbol->string (prelude.min:900-904) -/
def prelude_70 : E := (.define [«symbol->string»] (.lam ⟨[«s»], none⟩ [(.ite (.app (.var «symbol?») [(.var «s»)]) (.app (.var «$symbol->string») [(.var «s»)])
  (.app (.var «raise-argument-error») [(.quote (.sym «symbol->string»)), (.lit (.const 23)), (.var «s»)]))]))

/-- define string->symbol (prelude.min:906-910) -/
def prelude_71 : E := (.define [«string->symbol»] (.lam ⟨[«s»], none⟩ [(.ite (.app (.var «string?») [(.var «s»)]) (.app (.var «$string->symbol») [(.var «s»)])
  (.app (.var «raise-argument-error») [(.quote (.sym «string->symbol»)), (.lit (.const 28)), (.var «s»)]))]))

/-- define string->list (prelude.min:912-916) -/
def prelude_72 : E := (.define [«string->list»] (.lam ⟨[«s»], none⟩ [(.ite (.app (.var «string?») [(.var «s»)]) (.app (.var «$string->list») [(.var «s»)]) (.app
  (.var «raise-argument-error») [(.quote (.sym «string->list»)), (.lit (.const 28)), (.var «s»)]))]))

/-- define list (prelude.min:921-921) -/
def prelude_73 : E := (.define [«list»] (.lam ⟨[], some «args»⟩ [(.var «args»)]))

/-- define make-list (prelude.min:923-927) -/
def prelude_74 : E := (.define [«make-list»] (.lam ⟨[«len», «init»], none⟩ [(.ite (.ite (.app (.var «integer?») [(.var «len»)]) (.app (.var «>=») [(.var «len»),
  (.lit (.const 19))]) (.lit .fls)) (.app (.var «$make-list») [(.var «len»), (.var «init»)]) (.app (.var «raise-argument-error») [(.quote (.sym «length»)),
  (.lit (.const 26)), (.var «len»)]))]))

/-- define length (prelude.min:929-933) -/
def prelude_75 : E := (.define [«length»] (.lam ⟨[«xs»], none⟩ [(.ite (.app (.var «list?») [(.var «xs»)]) (.app (.var «$length») [(.var «xs»)]) (.app (.var
  «raise-argument-error») [(.quote (.sym «length»)), (.lit (.const 31)), (.var «xs»)]))]))

/-- define reverse (prelude.min:935-939) -/
def prelude_76 : E := (.define [«reverse»] (.lam ⟨[«xs»], none⟩ [(.ite (.app (.var «list?») [(.var «xs»)]) (.app (.var «$reverse») [(.var «xs»)]) (.app (.var
  «raise-argument-error») [(.quote (.sym «reverse»)), (.lit (.const 31)), (.var «xs»)]))]))

/-- define append (prelude.min:941-965) -/
def prelude_77 : E := (.define [«append»] (.letv [.mk [«non-list-error»] (.lam ⟨[«v»], none⟩ [(.app (.var «raise-argument-error») [(.quote (.sym «append»)),
  (.lit (.const 31)), (.var «v»)])])] [(.clam [.mk ⟨[], none⟩ [(.quote .null)], .mk ⟨[«xs»], none⟩ [(.ite (.app (.var «list?») [(.var «xs»)]) (.var «xs») (.app
  (.var «non-list-error») [(.var «xs»)]))], .mk ⟨[«xs», «ys»], none⟩ [(.ite (.app (.var «list?») [(.var «xs»)]) (.ite (.app (.var «list?») [(.var «ys»)]) (.app
  (.var «$append2») [(.var «xs»), (.var «ys»)]) (.app (.var «non-list-error») [(.var «ys»)])) (.app (.var «non-list-error») [(.var «xs»)]))], .mk ⟨[], some
  «xss»⟩ [(.letrecv [.mk [«loop»] (.lam ⟨[«acc», «xss»], none⟩ [(.ite (.app (.var «null?») [(.var «xss»)]) (.var «acc») (.ite (.app (.var «list?») [(.app (.var
  «$car») [(.var «xss»)])]) (.app (.var «loop») [(.app (.var «$append2») [(.app (.var «$car») [(.var «xss»)]), (.var «acc»)]), (.app (.var «$cdr») [(.var
  «xss»)])]) (.app (.var «non-list-error») [(.app (.var «$car») [(.var «xss»)])])))])] [(.app (.var «loop») [(.quote .null), (.app (.var «$reverse») [(.var
  «xss»)])])])]])]))

/-- define for-each map andmap ormap (prelude.min:967-1073) -/
def prelude_78 : E := (.define [«for-each», «map», «andmap», «ormap»] (.letrecv [.mk [«for-each1»] (.lam ⟨[«f», «xs»], none⟩ [(.ite (.app (.var «null?») [(.var
  «xs»)]) (.app (.var «void») []) (.begin [(.app (.var «f») [(.app (.var «$car») [(.var «xs»)])]), (.app (.var «for-each1») [(.var «f»), (.app (.var «$cdr»)
  [(.var «xs»)])])]))]), .mk [«map1»] (.lam ⟨[«f», «xs»], none⟩ [(.letrecv [.mk [«loop»] (.lam ⟨[«xs», «acc»], none⟩ [(.ite (.app (.var «null?») [(.var «xs»)])
  (.app (.var «reverse») [(.var «acc»)]) (.app (.var «loop») [(.app (.var «$cdr») [(.var «xs»)]), (.app (.var «cons») [(.app (.var «f») [(.app (.var «$car»)
  [(.var «xs»)])]), (.var «acc»)])]))])] [(.app (.var «loop») [(.var «xs»), (.quote .null)])])]), .mk [«andmap1»] (.lam ⟨[«pred?», «xs»], none⟩ [(.ite (.app
  (.var «null?») [(.var «xs»)]) (.lit .tru) (.ite (.app (.var «pred?») [(.app (.var «$car») [(.var «xs»)])]) (.app (.var «andmap1») [(.var «pred?»), (.app (.var
  «$cdr») [(.var «xs»)])]) (.lit .fls)))]), .mk [«ormap1»] (.lam ⟨[«pred?», «xs»], none⟩ [(.ite (.app (.var «null?») [(.var «xs»)]) (.lit .fls) (.ite (.app
  (.var «pred?») [(.app (.var «$car») [(.var «xs»)])]) (.lit .tru) (.app (.var «ormap1») [(.var «pred?»), (.app (.var «$cdr») [(.var «xs»)])])))]), .mk
  [«check-args!»] (.lam ⟨[«who», «f», «xss»], none⟩ [(.ite (.app (.var «procedure?») [(.var «f»)]) (.letrecv [.mk [«loop»] (.lam ⟨[«prev-len», «xss»], none⟩
  [(.ite (.app (.var «null?») [(.var «xss»)]) (.app (.var «void») []) (.ite (.app (.var «list?») [(.app (.var «$car») [(.var «xss»)])]) (.letv [.mk [«len»]
  (.app (.var «$length») [(.app (.var «$car») [(.var «xss»)])])] [(.ite (.ite (.var «prev-len») (.app (.var «=») [(.var «prev-len»), (.var «len»)]) (.lit .tru))
  (.app (.var «loop») [(.var «len»), (.app (.var «$cdr») [(.var «xss»)])]) (.app (.var «errorf») [(.var «who»), (.lit (.const 32)), (.var «prev-len»), (.app
  (.var «$car») [(.var «xss»)])]))]) (.app (.var «raise-argument-error») [(.var «who»), (.lit (.const 31)), (.app (.var «$car») [(.var «xss»)])])))])] [(.app
  (.var «loop») [(.lit .fls), (.var «xss»)])]) (.app (.var «raise-argument-error») [(.var «who»), (.lit (.const 22)), (.var «f»)]))])] [(.app (.var .values)
  [(.clam [.mk ⟨[«f», «xs»], none⟩ [(.app (.var «check-args!») [(.quote (.sym «for-each»)), (.var «f»), (.app (.var «list») [(.var «xs»)])]), (.app (.var
  «for-each1») [(.var «f»), (.var «xs»)])], .mk ⟨[«f», «xs»], some «xss»⟩ [(.app (.var «check-args!») [(.quote (.sym «for-each»)), (.var «f»), (.app (.var
  «cons») [(.var «xs»), (.var «xss»)])]), (.letrecv [.mk [«loop»] (.lam ⟨[«xss»], none⟩ [(.ite (.app (.var «ormap1») [(.var «null?»), (.var «xss»)]) (.app (.var
  «void») []) (.begin [(.app (.var «apply») [(.var «f»), (.app (.var «map1») [(.var «$car»), (.var «xss»)])]), (.app (.var «loop») [(.app (.var «map1») [(.var
  «$cdr»), (.var «xss»)])])]))])] [(.app (.var «loop») [(.app (.var «cons») [(.var «xs»), (.var «xss»)])])])]]), (.clam [.mk ⟨[«f», «xs»], none⟩ [(.app (.var
  «check-args!») [(.quote (.sym «map»)), (.var «f»), (.app (.var «list») [(.var «xs»)])]), (.app (.var «map1») [(.var «f»), (.var «xs»)])], .mk ⟨[«f», «xs»],
  some «xss»⟩ [(.app (.var «check-args!») [(.quote (.sym «map»)), (.var «f»), (.app (.var «cons») [(.var «xs»), (.var «xss»)])]), (.letrecv [.mk [«loop»] (.lam
  ⟨[«xss», «acc»], none⟩ [(.ite (.app (.var «ormap1») [(.var «null?»), (.var «xss»)]) (.app (.var «reverse») [(.var «acc»)]) (.app (.var «loop») [(.app (.var
  «map1») [(.var «$cdr»), (.var «xss»)]), (.app (.var «cons») [(.app (.var «apply») [(.var «f»), (.app (.var «map1») [(.var «$car»), (.var «xss»)])]), (.var
  «acc»)])]))])] [(.app (.var «loop») [(.app (.var «cons») [(.var «xs»), (.var «xss»)]), (.quote .null)])])]]), (.clam [.mk ⟨[«f», «xs»], none⟩ [(.app (.var
  «check-args!») [(.quote (.sym «andmap»)), (.var «f»), (.app (.var «list») [(.var «xs»)])]), (.app (.var «andmap1») [(.var «f»), (.var «xs»)])], .mk ⟨[«f»,
  «xs»], some «xss»⟩ [(.app (.var «check-args!») [(.quote (.sym «andmap»)), (.var «f»), (.app (.var «cons») [(.var «xs»), (.var «xss»)])]), (.letrecv [.mk
  [«loop»] (.lam ⟨[«xss»], none⟩ [(.ite (.app (.var «ormap1») [(.var «null?»), (.var «xss»)]) (.lit .tru) (.ite (.app (.var «apply») [(.var «f»), (.app (.var
  «map1») [(.var «$car»), (.var «xss»)])]) (.app (.var «loop») [(.app (.var «map1») [(.var «$cdr»), (.var «xss»)])]) (.lit .fls)))])] [(.app (.var «loop»)
  [(.app (.var «cons») [(.var «xs»), (.var «xss»)])])])]]), (.clam [.mk ⟨[«f», «xs»], none⟩ [(.app (.var «check-args!») [(.quote (.sym «ormap»)), (.var «f»),
  (.app (.var «list») [(.var «xs»)])]), (.app (.var «ormap1») [(.var «f»), (.var «xs»)])], .mk ⟨[«f», «xs»], some «xss»⟩ [(.app (.var «check-args!») [(.quote
  (.sym «ormap»)), (.var «f»), (.app (.var «cons») [(.var «xs»), (.var «xss»)])]), (.letrecv [.mk [«loop»] (.lam ⟨[«xss»], none⟩ [(.ite (.app (.var «ormap1»)
  [(.var «null?»), (.var «xss»)]) (.lit .fls) (.ite (.app (.var «apply») [(.var «f»), (.app (.var «map1») [(.var «$car»), (.var «xss»)])]) (.lit .tru) (.app
  (.var «loop») [(.app (.var «map1») [(.var «$cdr»), (.var «xss»)])])))])] [(.app (.var «loop») [(.app (.var «cons») [(.var «xs»), (.var «xss»)])])])]])])]))

/-- define iota (prelude.min:1075-1086) -/
def prelude_79 : E := (.define [«iota»] (.lam ⟨[«n»], none⟩ [(.ite (.app (.var «non-negative-integer?») [(.var «n»)]) (.letrecv [.mk [«loop»] (.lam ⟨[«n»,
  «xs»], none⟩ [(.ite (.app (.var «>») [(.var «n»), (.lit (.const 19))]) (.app (.var «loop») [(.app (.var «-») [(.var «n»), (.lit (.const 33))]), (.app (.var
  «cons») [(.app (.var «-») [(.var «n»), (.lit (.const 21))]), (.app (.var «cons») [(.var «n»), (.var «xs»)])])]) (.ite (.app (.var «=») [(.var «n»), (.lit
  (.const 19))]) (.app (.var «cons») [(.lit (.const 19)), (.var «xs»)]) (.var «xs»)))])] [(.app (.var «loop») [(.app (.var «sub1») [(.var «n»)]), (.quote
  .null)])]) (.app (.var «raise-argument-error») [(.quote (.sym «iota»)), (.lit (.const 34)), (.var «n»)]))]))

/-- define enumerate (prelude.min:1088-1099) -/
def prelude_80 : E := (.define [«enumerate»] (.lam ⟨[«xs»], none⟩ [(.ite (.app (.var «list?») [(.var «xs»)]) (.letrecv [.mk [«loop»] (.lam ⟨[«xs», «i», «acc»],
  none⟩ [(.ite (.app (.var «null?») [(.var «xs»)]) (.app (.var «$reverse») [(.var «acc»)]) (.app (.var «loop») [(.app (.var «$cdr») [(.var «xs»)]), (.app (.var
  «+») [(.var «i»), (.lit (.const 21))]), (.app (.var «cons») [(.app (.var «cons») [(.app (.var «$car») [(.var «xs»)]), (.var «i»)]), (.var «acc»)])]))])]
  [(.app (.var «loop») [(.var «xs»), (.lit (.const 19)), (.quote .null)])]) (.app (.var «raise-argument-error») [(.quote (.sym «enumerate»)), (.lit (.const
  31)), (.var «xs»)]))]))

/-- define vector (prelude.min:1104-1105) -/
def prelude_81 : E := (.define [«vector»] (.lam ⟨[], some «args»⟩ [(.app (.var «$list->vector») [(.var «args»)])]))

/-- define make-vector (prelude.min:1107-1119) -/
def prelude_82 : E := (.define [«make-vector»] (.letv [.mk [«check-length!»] (.lam ⟨[«n»], none⟩ [(.ite (.app (.var «non-negative-integer?») [(.var «n»)]) (.app
  (.var «void») []) (.app (.var «raise-argument-error») [(.quote (.sym «make-vector»)), (.lit (.const 26)), (.var «n»)]))])] [(.clam [.mk ⟨[«n»], none⟩ [(.app
  (.var «check-length!») [(.var «n»)]), (.app (.var «$make-vector») [(.var «n»), (.lit (.const 19))])], .mk ⟨[«n», «fill»], none⟩ [(.app (.var «check-length!»)
  [(.var «n»)]), (.app (.var «$make-vector») [(.var «n»), (.var «fill»)])]])]))

/-- define vector-length (prelude.min:1121-1125) -/
def prelude_83 : E := (.define [«vector-length»] (.lam ⟨[«v»], none⟩ [(.ite (.app (.var «vector?») [(.var «v»)]) (.app (.var «$vector-length») [(.var «v»)])
  (.app (.var «raise-argument-error») [(.quote (.sym «vector-length»)), (.lit (.const 35)), (.var «v»)]))]))

/-- define vector-ref (prelude.min:1127-1135) -/
def prelude_84 : E := (.define [«vector-ref»] (.lam ⟨[«v», «idx»], none⟩ [(.ite (.app (.var «vector?») [(.var «v»)]) (.ite (.app (.var «non-negative-integer?»)
  [(.var «idx»)]) (.ite (.app (.var «>=») [(.var «idx»), (.app (.var «$vector-length») [(.var «v»)])]) (.app (.var «raise-range-error») [(.quote (.sym
  «vector-ref»)), (.lit (.const 29)), (.var «v»), (.lit (.const 19)), (.app (.var «$vector-length») [(.var «v»)]), (.var «idx»)]) (.app (.var «$vector-ref»)
  [(.var «v»), (.var «idx»)])) (.app (.var «raise-argument-error») [(.quote (.sym «vector-ref»)), (.lit (.const 26)), (.var «idx»)])) (.app (.var
  «raise-argument-error») [(.quote (.sym «vector-ref»)), (.lit (.const 35)), (.var «v»)]))]))

/-- define vector-set! (prelude.min:1137-1145) -/
def prelude_85 : E := (.define [«vector-set!»] (.lam ⟨[«v», «idx», «x»], none⟩ [(.ite (.app (.var «vector?») [(.var «v»)]) (.ite (.app (.var
  «non-negative-integer?») [(.var «idx»)]) (.ite (.app (.var «>=») [(.var «idx»), (.app (.var «$vector-length») [(.var «v»)])]) (.app (.var «raise-range-error»)
  [(.quote (.sym «vector-set!»)), (.lit (.const 29)), (.var «v»), (.lit (.const 19)), (.app (.var «$vector-length») [(.var «v»)]), (.var «idx»)]) (.app (.var
  «$vector-set!») [(.var «v»), (.var «idx»), (.var «x»)])) (.app (.var «raise-argument-error») [(.quote (.sym «vector-set!»)), (.lit (.const 26)), (.var
  «idx»)])) (.app (.var «raise-argument-error») [(.quote (.sym «vector-set!»)), (.lit (.const 35)), (.var «v»)]))]))

/-- define vector-fill! (prelude.min:1147-1151) -/
def prelude_86 : E := (.define [«vector-fill!»] (.lam ⟨[«v», «x»], none⟩ [(.ite (.app (.var «vector?») [(.var «v»)]) (.app (.var «$vector-fill!») [(.var «v»),
  (.var «x»)]) (.app (.var «raise-argument-error») [(.quote (.sym «vector->list»)), (.lit (.const 35)), (.var «v»)]))]))

/-- define list->vector (prelude.min:1153-1157) -/
def prelude_87 : E := (.define [«list->vector»] (.lam ⟨[«xs»], none⟩ [(.ite (.app (.var «list?») [(.var «xs»)]) (.app (.var «$list->vector») [(.var «xs»)])
  (.app (.var «raise-argument-error») [(.quote (.sym «list->vector»)), (.lit (.const 31)), (.var «xs»)]))]))

/-- define vector->list (prelude.min:1159-1163) -/
def prelude_88 : E := (.define [«vector->list»] (.lam ⟨[«v»], none⟩ [(.ite (.app (.var «vector?») [(.var «v»)]) (.app (.var «$vector->list») [(.var «v»)]) (.app
  (.var «raise-argument-error») [(.quote (.sym «vector->list»)), (.lit (.const 35)), (.var «v»)]))]))

/-- define unbox (prelude.min:1168-1172) -/
def prelude_89 : E := (.define [«unbox»] (.lam ⟨[«x»], none⟩ [(.ite (.app (.var «box?») [(.var «x»)]) (.app (.var «$unbox») [(.var «x»)]) (.app (.var
  «raise-argument-error») [(.quote (.sym «unbox»)), (.lit (.const 36)), (.var «x»)]))]))

/-- define set-box! (prelude.min:1174-1178) -/
def prelude_90 : E := (.define [«set-box!»] (.lam ⟨[«x», «v»], none⟩ [(.ite (.app (.var «box?») [(.var «x»)]) (.app (.var «$set-box!») [(.var «x»), (.var «v»)])
  (.app (.var «raise-argument-error») [(.quote (.sym «set-box!»)), (.lit (.const 36)), (.var «x»)]))]))

/-- define open-input-file (prelude.min:1183-1187) -/
def prelude_91 : E := (.define [«open-input-file»] (.lam ⟨[«name»], none⟩ [(.ite (.app (.var «string?») [(.var «name»)]) (.app (.var «$open-input-file») [(.var
  «name»)]) (.app (.var «raise-argument-error») [(.quote (.sym «open-input-file»)), (.lit (.const 28)), (.var «name»)]))]))

/-- define open-output-file (prelude.min:1189-1193) -/
def prelude_92 : E := (.define [«open-output-file»] (.lam ⟨[«name»], none⟩ [(.ite (.app (.var «string?») [(.var «name»)]) (.app (.var «$open-output-file»)
  [(.var «name»)]) (.app (.var «raise-argument-error») [(.quote (.sym «open-output-file»)), (.lit (.const 28)), (.var «name»)]))]))

/-- define open-input-string (prelude.min:1195-1199) -/
def prelude_93 : E := (.define [«open-input-string»] (.lam ⟨[«str»], none⟩ [(.ite (.app (.var «string?») [(.var «str»)]) (.app (.var «$open-input-string»)
  [(.var «str»)]) (.app (.var «raise-argument-error») [(.quote (.sym «open-input-string»)), (.lit (.const 28)), (.var «name»)]))]))

/-- define close-input-port (prelude.min:1201-1205) -/
def prelude_94 : E := (.define [«close-input-port»] (.lam ⟨[«port»], none⟩ [(.ite (.app (.var «input-port?») [(.var «port»)]) (.app (.var «$close-input-port»)
  [(.var «port»)]) (.app (.var «raise-argument-error») [(.quote (.sym «close-input-file»)), (.lit (.const 37)), (.var «port»)]))]))

/-- define close-output-port (prelude.min:1207-1211) -/
def prelude_95 : E := (.define [«close-output-port»] (.lam ⟨[«port»], none⟩ [(.ite (.app (.var «output-port?») [(.var «port»)]) (.app (.var
  «$close-output-port») [(.var «port»)]) (.app (.var «raise-argument-error») [(.quote (.sym «close-output-file»)), (.lit (.const 38)), (.var «port»)]))]))

/-- define get-output-string (prelude.min:1213-1217) -/
def prelude_96 : E := (.define [«get-output-string»] (.lam ⟨[«port»], none⟩ [(.ite (.ite (.app (.var «output-port?») [(.var «port»)]) (.app (.var
  «string-port?») [(.var «port»)]) (.lit .fls)) (.app (.var «$get-output-string») [(.var «port»)]) (.app (.var «raise-argument-error») [(.quote (.sym
  «get-output-string»)), (.lit (.const 39)), (.var «port»)]))]))

/-- define make-record-type-descriptor (prelude.min:1222-1321) -/
def prelude_97 : E := (.define [«make-record-type-descriptor»] (.letrecv [.mk [«field-id»] (.lam ⟨[«field»], none⟩ [(.ite (.app (.var «pair?») [(.var «field»)])
  (.letv [.mk [«type»] (.app (.var «$car») [(.var «field»)]), .mk [«rib»] (.app (.var «$cdr») [(.var «field»)])] [(.ite (.ite (.app (.var «eq?») [(.var «type»),
  (.quote (.sym «immutable»))]) (.lit .tru) (.app (.var «eq?») [(.var «type»), (.quote (.sym «mutable»))])) (.letv [.mk [«name»] (.app (.var «$car») [(.var
  «rib»)]), .mk [«rib»] (.app (.var «$cdr») [(.var «rib»)])] [(.ite (.app (.var «symbol?») [(.var «name»)]) (.ite (.app (.var «null?») [(.var «rib»)]) (.var
  «name») (.lit .fls)) (.lit .fls))]) (.lit .fls))]) (.lit .fls))]), .mk [«check-args!»] (.lam ⟨[«name», «parent», «uid», «sealed?», «opaque?»], none⟩ [(.ite
  (.app (.var «symbol?») [(.var «name»)]) (.ite (.ite (.app (.var «record-type-descriptor?») [(.var «parent»)]) (.begin [(.ite (.app (.var
  «$record-type-sealed?») [(.var «parent»)]) (.app (.var «raise-argument-error») [(.quote (.sym «make-record-type-descriptor»)), (.lit (.const 40)), (.var
  «parent»)]) (.lit .tru))]) (.app (.var «not») [(.var «parent»)])) (.ite (.ite (.app (.var «symbol?») [(.var «uid»)]) (.lit .tru) (.app (.var «not») [(.var
  «uid»)])) (.ite (.app (.var «boolean?») [(.var «sealed?»)]) (.ite (.app (.var «boolean?») [(.var «opaque?»)]) (.ite (.app (.var «vector?») [(.var «fields»)])
  (.begin [(.app (.var «check-fields!») [(.var «fields»)]), (.app (.var «$make-record-type-descriptor») [(.var «name»), (.var «parent»), (.var «uid»), (.var
  «sealed?»), (.var «opaque?»), (.var «fields»)])]) (.app (.var «raise-argument-error») [(.quote (.sym «make-record-type-descriptor»)), (.lit (.const 35)),
  (.var «fields»)])) (.app (.var «raise-argument-error») [(.quote (.sym «make-record-type-descriptor»)), (.lit (.const 41)), (.var «opaque?»)])) (.app (.var
  «raise-argument-error») [(.quote (.sym «make-record-type-descriptor»)), (.lit (.const 41)), (.var «sealed?»)])) (.app (.var «raise-argument-error») [(.quote
  (.sym «make-record-type-descriptor»)), (.lit (.const 42)), (.var «uid»)])) (.app (.var «raise-argument-error») [(.quote (.sym «make-record-type-descriptor»)),
  (.lit (.const 43)), (.var «parent»)])) (.app (.var «raise-argument-error») [(.quote (.sym «make-record-type-descriptor»)), (.lit (.const 23)), (.var
  «name»)]))]), .mk [«check-fields!»] (.lam ⟨[«fields»], none⟩ [(.letrecv [.mk [«ids»] (.quote .null)] [(.app (.var «for-each») [(.lam ⟨[«i»], none⟩ [(.letv
  [.mk [«maybe-id»] (.app (.var «field-id») [(.app (.var «$vector-ref») [(.var «fields»), (.var «i»)])])] [(.ite (.var «maybe-id») (.ite (.app (.var «ormap»)
  [(.lam ⟨[«id»], none⟩ [(.app (.var «eq?») [(.var «maybe-id»), (.var «id»)])]), (.var «ids»)]) (.app (.var «raise-argument-error») [(.quote (.sym
  «make-record-type-descriptor»)), (.lit (.const 44)), (.var «maybe-id»)]) (.set «ids» (.app (.var «cons») [(.var «maybe-id»), (.var «ids»)]))) (.app (.var
  «raise-argument-error») [(.quote (.sym «make-record-type-descriptor»)), (.lit (.const 45)), (.var «field»)]))])]), (.app (.var «iota») [(.app (.var
  «$vector-length») [(.var «fields»)])])])])])] [(.lam ⟨[«name», «parent», «uid», «sealed?», «opaque?», «fields»], none⟩ [(.letv [.mk [«rtd»] (.app (.var
  «$make-record-type-descriptor») [(.var «name»), (.var «parent»), (.var «uid»), (.var «sealed?»), (.var «opaque?»), (.var «fields»)])] [(.ite (.var «parent»)
  (.letv [.mk [«rec-equal?»] (.app (.var «record-type-equal-procedure») [(.var «parent»)]), .mk [«rec-hash»] (.app (.var «record-type-hash-procedure») [(.var
  «parent»)]), .mk [«rec-writer»] (.app (.var «record-writer») [(.var «parent»)])] [(.ite (.var «rec-equal?») (.app (.var «record-type-equal-procedure») [(.var
  «rtd»), (.var «rec-equal?»)]) (.app (.var «void») [])), (.ite (.var «rec-hash») (.app (.var «record-type-hash-procedure») [(.var «rtd»), (.var «rec-hash»)])
  (.app (.var «void») [])), (.ite (.var «rec-writer») (.app (.var «record-writer») [(.var «rec-writer»)]) (.app (.var «void») []))]) (.app (.var «void») [])),
  (.var «rtd»)])])]))

/-- define record-type-name record-type-parent record-type-uid record-type-sealed? record-type-opaque? record-type-field-names (prelude.min:1323-1341) -/
def prelude_98 : E := (.define [«record-type-name», «record-type-parent», «record-type-uid», «record-type-sealed?», «record-type-opaque?»,
  «record-type-field-names»] (.letv [.mk [«make-accessor»] (.lam ⟨[«name», «accessor»], none⟩ [(.lam ⟨[«rtd»], none⟩ [(.ite (.app (.var
  «record-type-descriptor?») [(.var «rtd»)]) (.app (.var «accessor») [(.var «rtd»)]) (.app (.var «raise-argument-error») [(.var «name»), (.lit (.const 46)),
  (.var «rtd»)]))])])] [(.app (.var .values) [(.app (.var «make-accessor») [(.quote (.sym «record-type-name»)), (.var «$record-type-name»)]), (.app (.var
  «make-accessor») [(.quote (.sym «record-type-parent»)), (.var «$record-type-parent»)]), (.app (.var «make-accessor») [(.quote (.sym «record-type-uid»)), (.var
  «$record-type-uid»)]), (.app (.var «make-accessor») [(.quote (.sym «record-type-sealed?»)), (.var «$record-type-sealed?»)]), (.app (.var «make-accessor»)
  [(.quote (.sym «record-type-opaque?»)), (.var «$record-type-opaque?»)]), (.app (.var «make-accessor») [(.quote (.sym «record-type-field-names»)), (.var
  «$record-type-field-names»)])])]))

/-- define record-type-field-mutable? (prelude.min:1343-1352) -/
def prelude_99 : E := (.define [«record-type-field-mutable?»] (.lam ⟨[«rtd», «idx»], none⟩ [(.ite (.app (.var «record-type-descriptor?») [(.var «rtd»)]) (.ite
  (.ite (.app (.var «integer?») [(.var «idx»)]) (.app (.var «>=») [(.var «idx»), (.lit (.const 19))]) (.lit .fls)) (.letv [.mk [«fields»] (.app (.var
  «$record-type-field-names») [(.var «rtd»)])] [(.ite (.app (.var «<») [(.var «idx»), (.app (.var «$vector-length») [(.var «fields»)])]) (.app (.var
  «$record-type-field-mutable?») [(.var «rtd»), (.var «idx»)]) (.app (.var «raise-range-error») [(.quote (.sym «record-type-field-mutable»)), (.var «rtd»),
  (.lit (.const 29)), (.lit (.const 19)), (.app (.var «$vector-length») [(.var «fields»)]), (.var «idx»)]))]) (.app (.var «raise-argument-error») [(.quote (.sym
  «record-type-field-mutable?»)), (.lit (.const 47)), (.var «idx»)])) (.app (.var «raise-argument-error») [(.quote (.sym «record-type-field-mutable?»)), (.lit
  (.const 46)), (.var «rtd»)]))]))

/-- define record? record-rtd record-constructor record-predicate record-accessor record-mutator (prelude.min:1354-1449) -/
def prelude_100 : E := (.define [«record?», «record-rtd», «record-constructor», «record-predicate», «record-accessor», «record-mutator»] (.letv [.mk
  [«record-size»] (.lam ⟨[«rtd»], none⟩ [(.letrecv [.mk [«loop»] (.lam ⟨[«rtd», «size»], none⟩ [(.letv [.mk [«size»] (.app (.var «+») [(.var «size»), (.app
  (.var «$record-type-length») [(.var «rtd»)])]), .mk [«parent»] (.app (.var «$record-type-parent») [(.var «rtd»)])] [(.ite (.var «parent») (.app (.var «loop»)
  [(.var «parent»), (.var «size»)]) (.var «size»))])])] [(.app (.var «loop») [(.var «rtd»), (.lit (.const 19))])])]), .mk [«record-value?»] (.lam ⟨[«rtd»,
  «rec»], none⟩ [(.letrecv [.mk [«loop»] (.lam ⟨[«rec-rtd»], none⟩ [(.ite (.app (.var «eq?») [(.var «rtd»), (.var «rec-rtd»)]) (.lit .tru) (.letv [.mk
  [«parent»] (.app (.var «$record-type-parent») [(.var «rec-rtd»)])] [(.ite (.var «parent») (.app (.var «loop») [(.var «parent»)]) (.lit .fls))]))])] [(.app
  (.var «loop») [(.app (.var «$record-rtd») [(.var «rec»)])])])])] [(.app (.var .values) [(.lam ⟨[«rec»], none⟩ [(.ite (.app (.var «$record-value?») [(.var
  «rec»)]) (.app (.var «not») [(.app (.var «$record-type-opaque?») [(.app (.var «$record-rtd») [(.var «rec»)])])]) (.lit .fls))]), (.lam ⟨[«rec»], none⟩ [(.ite
  (.app (.var «record?») [(.var «rec»)]) (.app (.var «$record-rtd») [(.var «rec»)]) (.app (.var «raise-argument-error») [(.quote (.sym «record-rtd»)), (.lit
  (.const 48)), (.var «rec»)]))]), (.lam ⟨[«rtd»], none⟩ [(.ite (.app (.var «record-type-descriptor?») [(.var «rtd»)]) (.letrecv [.mk [«size»] (.app (.var
  «record-size») [(.var «rtd»)]), .mk [«make»] (.lam ⟨[], some «args»⟩ [(.ite (.app (.var «=») [(.app (.var «length») [(.var «args»)]), (.var «size»)]) (.app
  (.var «$make-record») [(.var «rtd»), (.var «args»)]) (.app (.var «raise-arity-error») [(.var «make»), (.var «size»), (.app (.var «length») [(.var
  «args»)])]))])] [(.var «make»)]) (.app (.var «raise-argument-error») [(.quote (.sym «record-constructor»)), (.lit (.const 49)), (.var «rtd»)]))]), (.lam
  ⟨[«rtd»], none⟩ [(.ite (.app (.var «record-type-descriptor?») [(.var «rtd»)]) (.lam ⟨[«rec»], none⟩ [(.ite (.app (.var «$record-value?») [(.var «rec»)]) (.app
  (.var «record-value?») [(.var «rtd»), (.var «rec»)]) (.lit .fls))]) (.app (.var «raise-argument-error») [(.quote (.sym «record-predicate»)), (.lit (.const
  49)), (.var «rtd»)]))]), (.lam ⟨[«rtd», «idx»], none⟩ [(.ite (.app (.var «record-type-descriptor?») [(.var «rtd»)]) (.ite (.ite (.app (.var «integer?») [(.var
  «idx»)]) (.app (.var «>=») [(.var «idx»), (.lit (.const 19))]) (.lit .fls)) (.ite (.app (.var «<») [(.var «idx»), (.app (.var «$record-type-length») [(.var
  «rtd»)])]) (.letrecv [.mk [«rtd?»] (.app (.var «record-predicate») [(.var «rtd»)]), .mk [«actual-idx»] (.ite (.app (.var «$record-type-parent») [(.var
  «rtd»)]) (.app (.var «+») [(.var «idx»), (.app (.var «record-size») [(.app (.var «$record-type-parent») [(.var «rtd»)])])]) (.var «idx»)), .mk [«acc»] (.lam
  ⟨[«rec»], none⟩ [(.ite (.app (.var «rtd?») [(.var «rec»)]) (.app (.var «$record-ref») [(.var «rec»), (.var «actual-idx»)]) (.app (.var «raise-argument-error»)
  [(.app (.var «procedure-name») [(.var «acc»)]), (.app (.var «format») [(.lit (.const 50)), (.app (.var «record-type-name») [(.var «rtd»)])]), (.var
  «rec»)]))])] [(.var «acc»)]) (.app (.var «raise-range-error») [(.quote (.sym «record-accessor»)), (.var «rtd»), (.lit (.const 29)), (.lit (.const 19)), (.app
  (.var «$record-type-length») [(.var «rtd»)]), (.var «idx»)])) (.app (.var «raise-argument-error») [(.quote (.sym «record-accessor»)), (.lit (.const 26)),
  (.var «idx»)])) (.app (.var «raise-argument-error») [(.quote (.sym «record-accessor»)), (.lit (.const 49)), (.var «rtd»)]))]), (.lam ⟨[«rtd», «idx»], none⟩
  [(.ite (.app (.var «record-type-descriptor?») [(.var «rtd»)]) (.ite (.ite (.app (.var «integer?») [(.var «idx»)]) (.app (.var «>=») [(.var «idx»), (.lit
  (.const 19))]) (.lit .fls)) (.ite (.app (.var «<») [(.var «idx»), (.app (.var «$record-type-length») [(.var «rtd»)])]) (.letrecv [.mk [«rtd?»] (.app (.var
  «record-predicate») [(.var «rtd»)]), .mk [«actual-idx»] (.ite (.app (.var «$record-type-parent») [(.var «rtd»)]) (.app (.var «+») [(.var «idx»), (.app (.var
  «record-size») [(.app (.var «$record-type-parent») [(.var «rtd»)])])]) (.var «idx»)), .mk [«mut»] (.lam ⟨[«rec», «v»], none⟩ [(.ite (.app (.var «rtd?») [(.var
  «rec»)]) (.app (.var «$record-set!») [(.var «rec»), (.var «actual-idx»), (.var «v»)]) (.app (.var «raise-argument-error») [(.app (.var «procedure-name»)
  [(.var «mut»)]), (.app (.var «format») [(.lit (.const 50)), (.app (.var «record-type-name») [(.var «rtd»)])]), (.var «rec»)]))])] [(.var «mut»)]) (.app (.var
  «raise-range-error») [(.quote (.sym «record-mutator»)), (.var «rtd»), (.lit (.const 29)), (.lit (.const 19)), (.app (.var «$record-type-length») [(.var
  «rtd»)]), (.var «idx»)])) (.app (.var «raise-argument-error») [(.quote (.sym «record-mutator»)), (.lit (.const 26)), (.var «idx»)])) (.app (.var
  «raise-argument-error») [(.quote (.sym «record-mutator»)), (.lit (.const 49)), (.var «rtd»)]))])])]))

/-- define make-custom-hashtable hashtable? $hashtable-store $hashtable-store-set! hashtable-hash-proc hashtable-equiv-proc hashtable-copy (prelude.min:1454-1479) -/
def prelude_101 : E := (.define [«make-custom-hashtable», «hashtable?», «$hashtable-store», «$hashtable-store-set!», «hashtable-hash-proc»,
  «hashtable-equiv-proc», «hashtable-copy»] (.letrecv [.mk [«$ht»] (.app (.var «make-record-type-descriptor») [(.quote (.sym «hashtable»)), (.lit .fls), (.lit
  .fls), (.lit .tru), (.lit .tru), (.lit (.const 51))]), .mk [«$make-ht»] (.app (.var «record-constructor») [(.var «$ht»)])] [(.app (.var .values) [(.lam
  ⟨[«hash», «equiv?»], none⟩ [(.app (.var «$make-ht») [(.app (.var «$make-hashtable») [(.lit (.const 19))]), (.var «hash»), (.var «equiv?»)])]), (.app (.var
  «record-predicate») [(.var «$ht»)]), (.app (.var «record-accessor») [(.var «$ht»), (.lit (.const 19))]), (.app (.var «record-mutator») [(.var «$ht»), (.lit
  (.const 19))]), (.app (.var «record-accessor») [(.var «$ht»), (.lit (.const 21))]), (.app (.var «record-accessor») [(.var «$ht»), (.lit (.const 33))]), (.lam
  ⟨[«ht»], none⟩ [(.ite (.app (.var «hashtable?») [(.var «ht»)]) (.app (.var «$make-ht») [(.app (.var «$hashtable-copy») [(.app (.var «$hashtable-store») [(.var
  «ht»)])]), (.app (.var «hashtable-hash-proc») [(.var «ht»)]), (.app (.var «hashtable-equiv-proc») [(.var «ht»)])]) (.app (.var «raise-argument-error»)
  [(.quote (.sym «hashtable-copy»)), (.lit (.const 52)), (.var «ht»)]))])])]))

/-- define make-eq-hashtable make-hashtable (prelude.min:1481-1483) -/
def prelude_102 : E := (.define [«make-eq-hashtable», «make-hashtable»] (.app (.var .values) [(.lam ⟨[], none⟩ [(.app (.var «make-custom-hashtable») [(.var
  «eq-hash»), (.var «eq?»)])]), (.lam ⟨[], none⟩ [(.app (.var «make-custom-hashtable») [(.var «equal-hash»), (.var «equal?»)])])]))

/-- define hashtable-size (prelude.min:1485-1489) -/
def prelude_103 : E := (.define [«hashtable-size»] (.lam ⟨[«ht»], none⟩ [(.ite (.app (.var «hashtable?») [(.var «ht»)]) (.app (.var «$hashtable-size») [(.app
  (.var «$hashtable-store») [(.var «ht»)])]) (.app (.var «raise-argument-error») [(.quote (.sym «hashtable-set!»)), (.lit (.const 52)), (.var «ht»)]))]))

/-- define hashtable-entries hashtable-keys hashtable-vals (prelude.min:1491-1538) -/
def prelude_104 : E := (.define [«hashtable-entries», «hashtable-keys», «hashtable-vals»] (.letv [.mk [«check-arg!»] (.lam ⟨[«name», «ht»], none⟩ [(.ite (.app
  (.var «hashtable?») [(.var «ht»)]) (.app (.var «void») []) (.app (.var «raise-argument-error») [(.var «name»), (.lit (.const 52)), (.var «ht»)]))])] [(.app
  (.var .values) [(.lam ⟨[«ht»], none⟩ [(.app (.var «check-arg!») [(.quote (.sym «hashtable-entries»)), (.var «ht»)]), (.letrecv [.mk [«store»] (.app (.var
  «$hashtable-store») [(.var «ht»)]), .mk [«size»] (.app (.var «$hashtable-size») [(.var «store»)]), .mk [«keys»] (.app (.var «$make-vector») [(.var «size»),
  (.lit .fls)]), .mk [«vals»] (.app (.var «$make-vector») [(.var «size»), (.lit .fls)]), .mk [«loop»] (.lam ⟨[«cells», «i»], none⟩ [(.ite (.app (.var «null?»)
  [(.var «cells»)]) (.app (.var .values) [(.var «keys»), (.var «vals»)]) (.begin [(.app (.var «vector-set!») [(.var «keys»), (.var «i»), (.app (.var «$caar»)
  [(.var «cells»)])]), (.app (.var «vector-set!») [(.var «vals»), (.var «i»), (.app (.var «$cdar») [(.var «cells»)])]), (.app (.var «loop») [(.app (.var «$cdr»)
  [(.var «cells»)]), (.app (.var «add1») [(.var «i»)])])]))])] [(.app (.var «loop») [(.app (.var «$hashtable-cells») [(.var «store»)]), (.lit (.const
  19))])])]), (.lam ⟨[«ht»], none⟩ [(.app (.var «check-arg!») [(.quote (.sym «hashtable-entries»)), (.var «ht»)]), (.letrecv [.mk [«store»] (.app (.var
  «$hashtable-store») [(.var «ht»)]), .mk [«size»] (.app (.var «$hashtable-size») [(.var «store»)]), .mk [«keys»] (.app (.var «$make-vector») [(.var «size»),
  (.lit .fls)]), .mk [«loop»] (.lam ⟨[«cells», «i»], none⟩ [(.ite (.app (.var «null?») [(.var «cells»)]) (.var «keys») (.begin [(.app (.var «vector-set!»)
  [(.var «keys»), (.var «i»), (.app (.var «$caar») [(.var «cells»)])]), (.app (.var «loop») [(.app (.var «$cdr») [(.var «cells»)]), (.app (.var «add1») [(.var
  «i»)])])]))])] [(.app (.var «loop») [(.app (.var «$hashtable-cells») [(.var «store»)]), (.lit (.const 19))])])]), (.lam ⟨[«ht»], none⟩ [(.app (.var
  «check-arg!») [(.quote (.sym «hashtable-entries»)), (.var «ht»)]), (.letrecv [.mk [«store»] (.app (.var «$hashtable-store») [(.var «ht»)]), .mk [«size»] (.app
  (.var «$hashtable-size») [(.var «store»)]), .mk [«vals»] (.app (.var «$make-vector») [(.var «size»), (.lit .fls)]), .mk [«loop»] (.lam ⟨[«cells», «i»], none⟩
  [(.ite (.app (.var «null?») [(.var «cells»)]) (.var «vals») (.begin [(.app (.var «vector-set!») [(.var «vals»), (.var «i»), (.app (.var «$cdar») [(.var
  «cells»)])]), (.app (.var «loop») [(.app (.var «$cdr») [(.var «cells»)]), (.app (.var «add1») [(.var «i»)])])]))])] [(.app (.var «loop») [(.app (.var
  «$hashtable-cells») [(.var «store»)]), (.lit (.const 19))])])])])]))

/-- define hashtable-contains? hashtable-ref hashtable-set! hashtable-update! hashtable-delete! (prelude.min:1541-1710) -/
def prelude_105 : E := (.define [«hashtable-contains?», «hashtable-ref», «hashtable-set!», «hashtable-update!», «hashtable-delete!»] (.letrecv [.mk [«min-size»]
  (.lit (.const 53)), .mk [«do-hash»] (.lam ⟨[«hash», «x»], none⟩ [(.letv [.mk [«h»] (.app (.var «hash») [(.var «x»)])] [(.ite (.app (.var «fixnum?») [(.var
  «h»)]) (.var «h») (.app (.var «raise-argument-error») [(.quote (.sym «do-hash»)), (.lit (.const 54)), (.var «hash»), (.var «h»)]))])]), .mk [«incr-size!»]
  (.lam ⟨[«ht», «store»], none⟩ [(.letv [.mk [«size»] (.app (.var «add1») [(.app (.var «$hashtable-size») [(.var «store»)])]), .mk [«n»] (.app (.var
  «$hashtable-length») [(.var «store»)])] [(.app (.var «$hashtable-size-set!») [(.var «store»), (.var «size»)]), (.ite (.app (.var «>») [(.var «size»), (.var
  «n»)]) (.app (.var «adjust!») [(.var «ht»), (.var «store»), (.var «size»)]) (.app (.var «void») []))])]), .mk [«decr-size!»] (.lam ⟨[«ht», «store»], none⟩
  [(.letv [.mk [«size»] (.app (.var «sub1») [(.app (.var «$hashtable-size») [(.var «store»)])]), .mk [«n»] (.app (.var «$hashtable-length») [(.var «store»)])]
  [(.app (.var «$hashtable-size-set!») [(.var «store»), (.var «size»)]), (.ite (.ite (.app (.var «<») [(.var «size»), (.app (.var «/») [(.var «n»), (.lit
  (.const 55))])]) (.app (.var «>») [(.var «size»), (.var «min-size»)]) (.lit .fls)) (.app (.var «adjust!») [(.var «ht»), (.var «store»), (.var «size»)]) (.app
  (.var «void») []))])]), .mk [«adjust!»] (.lam ⟨[«ht», «store», «n2»], none⟩ [(.letrecv [.mk [«n1»] (.app (.var «$hashtable-size») [(.var «store»)]), .mk
  [«store2»] (.app (.var «$make-hashtable») [(.var «n2»)])] [(.app (.var «for-each») [(.lam ⟨[«a»], none⟩ [(.letv [.mk [«h»] (.app (.var «do-hash») [(.app (.var
  «hashtable-hash-proc») [(.var «ht»)]), (.app (.var «car») [(.var «a»)])])] [(.app (.var «$hashtable-set!») [(.var «store2»), (.var «h»), (.app (.var «cons»)
  [(.var «a»), (.app (.var «$hashtable-ref») [(.var «store2»), (.var «h»)])])])])]), (.app (.var «$hashtable-cells») [(.var «store»)])]), (.app (.var
  «$hashtable-size-set!») [(.var «store2»), (.var «n1»)]), (.app (.var «$hashtable-store-set!») [(.var «ht»), (.var «store2»)])])]), .mk
  [«1/hashtable-cell-ref»] (.lam ⟨[«ht», «h», «k»], none⟩ [(.letrecv [.mk [«equiv?»] (.app (.var «hashtable-equiv-proc») [(.var «ht»)]), .mk [«store»] (.app
  (.var «$hashtable-store») [(.var «ht»)]), .mk [«loop»] (.lam ⟨[«b»], none⟩ [(.ite (.app (.var «null?») [(.var «b»)]) (.lit .fls) (.letv [.mk [«a»] (.app (.var
  «car») [(.var «b»)])] [(.ite (.app (.var «equiv?») [(.app (.var «car») [(.var «a»)]), (.var «k»)]) (.var «a») (.app (.var «loop») [(.app (.var «cdr») [(.var
  «b»)])]))]))])] [(.app (.var «loop») [(.app (.var «$hashtable-ref») [(.var «store»), (.var «h»)])])])]), .mk [«1/hashtable-cell-delete!»] (.lam ⟨[«ht», «k»],
  none⟩ [(.letrecv [.mk [«equiv?»] (.app (.var «hashtable-equiv-proc») [(.var «ht»)]), .mk [«store»] (.app (.var «$hashtable-store») [(.var «ht»)]), .mk [«h»]
  (.app (.var «do-hash») [(.app (.var «hashtable-hash-proc») [(.var «ht»)]), (.var «k»)]), .mk [«bucket»] (.app (.var «$hashtable-ref») [(.var «store»), (.var
  «h»)]), .mk [«loop»] (.lam ⟨[«b», «p»], none⟩ [(.ite (.app (.var «null?») [(.var «b»)]) (.app (.var «void») []) (.letv [.mk [«a»] (.app (.var «car») [(.var
  «b»)])] [(.ite (.app (.var «equiv?») [(.app (.var «car») [(.var «a»)]), (.var «k»)]) (.begin [(.ite (.var «p») (.app (.var «set-cdr!») [(.var «p»), (.app
  (.var «cdr») [(.var «b»)])]) (.app (.var «$hashtable-set!») [(.var «store»), (.var «h»), (.app (.var «cdr») [(.var «b»)])])), (.app (.var «decr-size!») [(.var
  «ht»), (.var «store»)])]) (.app (.var «loop») [(.app (.var «cdr») [(.var «b»)]), (.var «b»)]))]))])] [(.app (.var «loop») [(.var «bucket»), (.lit .fls)])])]),
  .mk [«1/hashtable-contains?»] (.lam ⟨[«ht», «k»], none⟩ [(.letrecv [.mk [«h»] (.app (.var «do-hash») [(.app (.var «hashtable-hash-proc») [(.var «ht»)]), (.var
  «k»)]), .mk [«cell»] (.app (.var «1/hashtable-cell-ref») [(.var «ht»), (.var «h»), (.var «k»)])] [(.ite (.var «cell») (.lit .tru) (.lit .fls))])]), .mk
  [«1/hashtable-ref»] (.lam ⟨[«ht», «k», «default»], none⟩ [(.letrecv [.mk [«h»] (.app (.var «do-hash») [(.app (.var «hashtable-hash-proc») [(.var «ht»)]),
  (.var «k»)]), .mk [«cell»] (.app (.var «1/hashtable-cell-ref») [(.var «ht»), (.var «h»), (.var «k»)])] [(.ite (.var «cell») (.app (.var «$cdr») [(.var
  «cell»)]) (.ite (.app (.var «procedure?») [(.var «default»)]) (.app (.var «default») []) (.var «default»)))])]), .mk [«1/hashtable-cell»] (.lam ⟨[«ht», «k»,
  «default»], none⟩ [(.letrecv [.mk [«h»] (.app (.var «do-hash») [(.app (.var «hashtable-hash-proc») [(.var «ht»)]), (.var «k»)]), .mk [«cell»] (.app (.var
  «1/hashtable-cell-ref») [(.var «ht»), (.var «h»), (.var «k»)])] [(.ite (.var «cell») (.var «cell») (.letv [.mk [«store»] (.app (.var «$hashtable-store»)
  [(.var «ht»)]), .mk [«cell»] (.app (.var «cons») [(.var «k»), (.var «default»)])] [(.app (.var «$hashtable-set!») [(.var «store»), (.var «h»), (.app (.var
  «cons») [(.var «cell»), (.app (.var «$hashtable-ref») [(.var «store»), (.var «h»)])])]), (.app (.var «incr-size!») [(.var «ht»), (.var «store»)]), (.var
  «cell»)]))])]), .mk [«1/hashtable-set!»] (.lam ⟨[«ht», «k», «v»], none⟩ [(.letv [.mk [«cell»] (.app (.var «1/hashtable-cell») [(.var «ht»), (.var «k»), (.var
  «v»)])] [(.app (.var «set-cdr!») [(.var «cell»), (.var «v»)])])]), .mk [«1/hashtable-update!»] (.lam ⟨[«ht», «k», «updater», «default»], none⟩ [(.letrecv [.mk
  [«h»] (.app (.var «do-hash») [(.app (.var «hashtable-hash-proc») [(.var «ht»)]), (.var «k»)]), .mk [«cell»] (.app (.var «1/hashtable-cell-ref») [(.var «ht»),
  (.var «h»), (.var «k»)])] [(.ite (.var «cell») (.app (.var «set-cdr!») [(.var «cell»), (.app (.var «updater») [(.app (.var «$cdr») [(.var «cell»)])])]) (.letv
  [.mk [«store»] (.app (.var «$hashtable-store») [(.var «ht»)]), .mk [«cell»] (.app (.var «cons») [(.var «k»), (.ite (.app (.var «procedure?») [(.var
  «default»)]) (.app (.var «updater») [(.app (.var «default») [])]) (.app (.var «updater») [(.var «default»)]))])] [(.app (.var «$hashtable-set!») [(.var
  «store»), (.var «h»), (.app (.var «cons») [(.var «cell»), (.app (.var «$hashtable-ref») [(.var «store»), (.var «h»)])])]), (.app (.var «incr-size!») [(.var
  «ht»), (.var «store»)])]))])]), .mk [«no-key!»] (.lam ⟨[«who», «ht», «k»], none⟩ [(.app (.var «raise-missing-error») [(.var «who»), (.lit (.const 56)), (.var
  «ht»), (.var «k»)])]), .mk [«non-hashtable-error»] (.lam ⟨[«who», «v»], none⟩ [(.app (.var «raise-argument-error») [(.var «who»), (.lit (.const 52)), (.var
  «v»)])])] [(.app (.var .values) [(.lam ⟨[«ht», «k»], none⟩ [(.ite (.app (.var «hashtable?») [(.var «ht»)]) (.app (.var «1/hashtable-contains?») [(.var «ht»),
  (.var «k»)]) (.app (.var «non-hashtable-error») [(.quote (.sym «hashtable-set!»)), (.var «ht»)]))]), (.clam [.mk ⟨[«ht», «k»], none⟩ [(.ite (.app (.var
  «hashtable?») [(.var «ht»)]) (.app (.var «1/hashtable-ref») [(.var «ht»), (.var «k»), (.lam ⟨[], none⟩ [(.app (.var «no-key!») [(.quote (.sym
  «hashtable-ref»)), (.var «ht»), (.var «k»)])])]) (.app (.var «non-hashtable-error») [(.quote (.sym «hashtable-ref»)), (.var «ht»)]))], .mk ⟨[«ht», «k»,
  «default»], none⟩ [(.ite (.app (.var «hashtable?») [(.var «ht»)]) (.app (.var «1/hashtable-ref») [(.var «ht»), (.var «k»), (.var «default»)]) (.app (.var
  «non-hashtable-error») [(.quote (.sym «hashtable-ref»)), (.var «ht»)]))]]), (.lam ⟨[«ht», «k», «v»], none⟩ [(.ite (.app (.var «hashtable?») [(.var «ht»)])
  (.app (.var «1/hashtable-set!») [(.var «ht»), (.var «k»), (.var «v»)]) (.app (.var «non-hashtable-error») [(.quote (.sym «hashtable-set!»)), (.var «ht»)]))]),
  (.clam [.mk ⟨[«ht», «k», «updater»], none⟩ [(.ite (.app (.var «hashtable?») [(.var «ht»)]) (.ite (.app (.var «procedure?») [(.var «updater»)]) (.app (.var
  «1/hashtable-update!») [(.var «ht»), (.var «k»), (.var «updater»), (.lam ⟨[], none⟩ [(.app (.var «no-key!») [(.quote (.sym «hashtable-update»)), (.var «ht»),
  (.var «k»)])])]) (.app (.var «raise-argument-error») [(.quote (.sym «hashtable-update!»)), (.lit (.const 22)), (.var «updater»)])) (.app (.var
  «non-hashtable-error») [(.quote (.sym «hashtable-update!»)), (.var «ht»)]))], .mk ⟨[«ht», «k», «updater», «default»], none⟩ [(.ite (.app (.var «hashtable?»)
  [(.var «ht»)]) (.ite (.app (.var «procedure?») [(.var «updater»)]) (.app (.var «1/hashtable-update!») [(.var «ht»), (.var «k»), (.var «updater»), (.var
  «default»)]) (.app (.var «raise-argument-error») [(.quote (.sym «hashtable-update!»)), (.lit (.const 22)), (.var «updater»)])) (.app (.var
  «non-hashtable-error») [(.quote (.sym «hashtable-update!»)), (.var «ht»)]))]]), (.lam ⟨[«ht», «k»], none⟩ [(.ite (.app (.var «hashtable?») [(.var «ht»)])
  (.app (.var «1/hashtable-cell-delete!») [(.var «ht»), (.var «k»)]) (.app (.var «non-hashtable-error») [(.quote (.sym «hashtable-set!»)), (.var «ht»)]))])])]))

/-- define hashtable-clear! (prelude.min:1712-1716) -/
def prelude_106 : E := (.define [«hashtable-clear!»] (.lam ⟨[«ht»], none⟩ [(.ite (.app (.var «hashtable?») [(.var «ht»)]) (.app (.var «$hashtable-clear!»)
  [(.app (.var «$hashtable-store») [(.var «ht»)])]) (.app (.var «raise-argument-error») [(.quote (.sym «hashtable-clear!»)), (.lit (.const 52)), (.var
  «ht»)]))]))

/-- define default-record-equal-procedure (prelude.min:1722-1730) -/
def prelude_107 : E := (.define [«default-record-equal-procedure»] (.clam [.mk ⟨[], none⟩ [(.app (.var «$default-record-equal-procedure») [])], .mk ⟨[«proc»],
  none⟩ [(.ite (.app (.var «procedure?») [(.var «proc»)]) (.app (.var «$default-record-equal-procedure») [(.var «proc»)]) (.app (.var «raise-argument-error»)
  [(.quote (.sym «default-record-equal-procedure»)), (.lit (.const 22)), (.var «proc»)]))]]))

/-- define default-record-hash-procedure (prelude.min:1733-1741) -/
def prelude_108 : E := (.define [«default-record-hash-procedure»] (.clam [.mk ⟨[], none⟩ [(.app (.var «$default-record-equal-procedure») [])], .mk ⟨[«proc»],
  none⟩ [(.ite (.app (.var «procedure?») [(.var «proc»)]) (.app (.var «$default-record-hash-procedure») [(.var «proc»)]) (.app (.var «raise-argument-error»)
  [(.quote (.sym «default-record-hash-procedure»)), (.lit (.const 22)), (.var «proc»)]))]]))

/-- define record-type-equal-procedure record-type-hash-procedure (prelude.min:1743-1790) -/
def prelude_109 : E := (.define [«record-type-equal-procedure», «record-type-hash-procedure»] (.letrecv [.mk [«$equal-table»] (.app (.var «make-eq-hashtable»)
  []), .mk [«$hash-table»] (.app (.var «make-eq-hashtable») []), .mk [«do-table-ref»] (.lam ⟨[«rtd», «mode»], none⟩ [(.ite (.app (.var «eq?») [(.var «mode»),
  (.quote (.sym «equal»))]) (.app (.var «hashtable-ref») [(.var «$equal-table»), (.var «rtd»), (.lit .fls)]) (.ite (.app (.var «eq?») [(.var «mode»), (.quote
  (.sym «hash»))]) (.app (.var «hashtable-ref») [(.var «$hash-table»), (.var «rtd»), (.lit .fls)]) (.app (.var «errorf») [(.quote (.sym «do-table-ref»)), (.lit
  (.const 57)), (.var «mode»)])))]), .mk [«do-table-set!»] (.lam ⟨[«rtd», «mode», «proc»], none⟩ [(.ite (.app (.var «eq?») [(.var «mode»), (.quote (.sym
  «equal»))]) (.app (.var «hashtable-set!») [(.var «$equal-table»), (.var «rtd»), (.var «proc»)]) (.ite (.app (.var «eq?») [(.var «mode»), (.quote (.sym
  «hash»))]) (.app (.var «hashtable-set!») [(.var «$hash-table»), (.var «rtd»), (.var «proc»)]) (.app (.var «errorf») [(.quote (.sym «do-table-ref»)), (.lit
  (.const 57)), (.var «mode»)])))]), .mk [«non-rtd-error»] (.lam ⟨[«who», «v»], none⟩ [(.app (.var «raise-argument-error») [(.var «who»), (.lit (.const 58)),
  (.var «v_»)])]), .mk [«non-proc-error»] (.lam ⟨[«who», «v»], none⟩ [(.app (.var «raise-argument-error») [(.var «who»), (.lit (.const 22)), (.var «v»)])])]
  [(.app (.var .values) [(.clam [.mk ⟨[«rtd»], none⟩ [(.ite (.app (.var «record-type-descriptor?») [(.var «rtd»)]) (.app (.var «do-table-ref») [(.var «rtd»),
  (.quote (.sym «equal»))]) (.app (.var «non-rtd-error») [(.quote (.sym «record-type-equal-procedure»)), (.var «rtd»)]))], .mk ⟨[«rtd», «proc»], none⟩ [(.ite
  (.app (.var «record-type-descriptor?») [(.var «rtd»)]) (.ite (.app (.var «procedure?») [(.var «proc»)]) (.app (.var «do-table-set!») [(.var «rtd»), (.quote
  (.sym «equal»)), (.var «proc»)]) (.app (.var «non-proc-error») [(.quote (.sym «record-type-equal-procedure»)), (.var «proc»)])) (.app (.var «non-rtd-error»)
  [(.quote (.sym «record-type-equal-procedure»)), (.var «rtd»)]))]]), (.clam [.mk ⟨[«rtd»], none⟩ [(.ite (.app (.var «record-type-descriptor?») [(.var «rtd»)])
  (.app (.var «do-table-ref») [(.var «rtd»), (.quote (.sym «hash»))]) (.app (.var «non-rtd-error») [(.quote (.sym «record-type-hash-procedure»)), (.var
  «rtd»)]))], .mk ⟨[«rtd», «proc»], none⟩ [(.ite (.app (.var «record-type-descriptor?») [(.var «rtd»)]) (.ite (.app (.var «procedure?») [(.var «proc»)]) (.app
  (.var «do-table-set!») [(.var «rtd»), (.quote (.sym «hash»)), (.var «proc»)]) (.app (.var «non-proc-error») [(.quote (.sym «record-type-hash-procedure»)),
  (.var «proc»)])) (.app (.var «non-rtd-error») [(.quote (.sym «record-type-hash-procedure»)), (.var «rtd»)]))]])])]))

/-- define record-equal-procedure (prelude.min:1792-1805) -/
def prelude_110 : E := (.define [«record-equal-procedure»] (.lam ⟨[«a», «b»], none⟩ [(.ite (.app (.var «$record-value?») [(.var «a»)]) (.ite (.app (.var
  «$record-value?») [(.var «b»)]) (.letv [.mk [«a-rtd»] (.app (.var «$record-rtd») [(.var «a»)]), .mk [«b-rtd»] (.app (.var «$record-rtd») [(.var «b»)])]
  [(.letv [.mk [«proc»] (.app (.var «record-type-equal-procedure») [(.var «a-rtd»)])] [(.ite (.var «proc») (.ite (.app (.var «eq?») [(.var «proc»), (.app (.var
  «record-type-equal-procedure») [(.var «b-rtd»)])]) (.var «proc») (.lit .fls)) (.lit .fls))])]) (.app (.var «raise-argument-error») [(.quote (.sym
  «record-equal-procedure»)), (.lit (.const 48)), (.var «b»)])) (.app (.var «raise-argument-error») [(.quote (.sym «record-equal-procedure»)), (.lit (.const
  48)), (.var «a»)]))]))

/-- define record-hash-procedure (prelude.min:1807-1812) -/
def prelude_111 : E := (.define [«record-hash-procedure»] (.lam ⟨[«a»], none⟩ [(.ite (.app (.var «$record-value?») [(.var «a»)]) (.letv [.mk [«rtd»] (.app (.var
  «$record-rtd») [(.var «a»)])] [(.app (.var «record-type-hash-procedure») [(.var «rtd»)])]) (.app (.var «raise-argument-error») [(.quote (.sym
  «record-equal-procedure»)), (.lit (.const 48)), (.var «a»)]))]))

/-- define record-writer (prelude.min:1814-1832) -/
def prelude_112 : E := (.define [«record-writer»] (.letrecv [.mk [«$writer-table»] (.app (.var «make-eq-hashtable») []), .mk [«non-rtd-error»] (.lam ⟨[«who»,
  «v»], none⟩ [(.app (.var «raise-argument-error») [(.var «who»), (.lit (.const 58)), (.var «v_»)])]), .mk [«non-proc-error»] (.lam ⟨[«who», «v»], none⟩ [(.app
  (.var «raise-argument-error») [(.var «who»), (.lit (.const 22)), (.var «v»)])])] [(.clam [.mk ⟨[«rtd»], none⟩ [(.ite (.app (.var «record-type-descriptor?»)
  [(.var «rtd»)]) (.app (.var «hashtable-ref») [(.var «$writer-table»), (.var «rtd»), (.lit .fls)]) (.app (.var «non-rtd-error») [(.quote (.sym
  «record-writer»)), (.var «rtd»)]))], .mk ⟨[«rtd», «proc»], none⟩ [(.ite (.app (.var «record-type-descriptor?») [(.var «rtd»)]) (.ite (.app (.var «procedure?»)
  [(.var «proc»)]) (.app (.var «hashtable-set!») [(.var «$writer-table»), (.var «rtd»), (.var «proc»)]) (.app (.var «non-proc-error») [(.quote (.sym
  «record-writer»)), (.var «proc»)])) (.app (.var «non-rtd-error») [(.quote (.sym «record-writer»)), (.var «rtd»)]))]])]))

/-- define equal? (prelude.min:1837-1897) -/
def prelude_113 : E := (.define [«equal?»] (.letrecv [.mk [«equal-pair?»] (.lam ⟨[«a», «b»], none⟩ [(.ite (.app (.var «equal?») [(.app (.var «$car») [(.var
  «a»)]), (.app (.var «$car») [(.var «b»)])]) (.app (.var «equal?») [(.app (.var «$cdr») [(.var «a»)]), (.app (.var «$cdr») [(.var «b»)])]) (.lit .fls))]), .mk
  [«equal-vector?»] (.lam ⟨[«a», «b»], none⟩ [(.ite (.app (.var «=») [(.app (.var «$vector-length») [(.var «a»)]), (.app (.var «$vector-length») [(.var «b»)])])
  (.app (.var «andmap») [(.lam ⟨[«i»], none⟩ [(.app (.var «equal?») [(.app (.var «$vector-ref») [(.var «a»), (.var «i»)]), (.app (.var «$vector-ref») [(.var
  «b»), (.var «i»)])])]), (.app (.var «iota») [(.app (.var «$vector-length») [(.var «a»)])])]) (.lit .fls))]), .mk [«equal-hashtable?»] (.lam ⟨[«a», «b»], none⟩
  [(.ite (.app (.var «eq?») [(.app (.var «hashtable-hash-proc») [(.var «a»)]), (.app (.var «hashtable-hash-proc») [(.var «b»)])]) (.ite (.app (.var «eq?»)
  [(.app (.var «hashtable-equiv-proc») [(.var «a»)]), (.app (.var «hashtable-equiv-proc») [(.var «b»)])]) (.letv [.mk [«kas», «vas»] (.app (.var
  «hashtable-entries») [(.var «a»)])] [(.app (.var «andmap») [(.lam ⟨[«i»], none⟩ [(.letv [.mk [«ka»] (.app (.var «$vector-ref») [(.var «kas»), (.var «i»)]),
  .mk [«va»] (.app (.var «$vector-ref») [(.var «vas»), (.var «i»)])] [(.ite (.app (.var «hashtable-contains?») [(.var «b»), (.var «ka»)]) (.app (.var «equal?»)
  [(.var «va»), (.app (.var «hashtable-ref») [(.var «b»), (.var «ka»)])]) (.lit .fls))])]), (.app (.var «iota») [(.app (.var «$vector-length») [(.var
  «kas»)])])])]) (.lit .fls)) (.lit .fls))])] [(.lam ⟨[«a», «b»], none⟩ [(.ite (.app (.var «eq?») [(.var «a»), (.var «b»)]) (.lit .tru) (.ite (.ite (.app (.var
  «symbol?») [(.var «a»)]) (.lit .fls) (.app (.var «string?») [(.var «a»)])) (.app (.var «$equal?») [(.var «a»), (.var «b»)]) (.ite (.app (.var «pair?») [(.var
  «a»)]) (.ite (.app (.var «pair?») [(.var «b»)]) (.app (.var «equal-pair?») [(.var «a»), (.var «b»)]) (.lit .fls)) (.ite (.app (.var «vector?») [(.var «a»)])
  (.ite (.app (.var «vector?») [(.var «b»)]) (.app (.var «equal-vector?») [(.var «a»), (.var «b»)]) (.lit .fls)) (.ite (.app (.var «box?») [(.var «a»)]) (.ite
  (.app (.var «box?») [(.var «b»)]) (.app (.var «equal?») [(.app (.var «unbox») [(.var «a»)]), (.app (.var «unbox») [(.var «b»)])]) (.lit .fls)) (.ite (.app
  (.var «hashtable?») [(.var «a»)]) (.ite (.app (.var «hashtable?») [(.var «b»)]) (.app (.var «equal-hashtable?») [(.var «a»), (.var «b»)]) (.lit .fls)) (.ite
  (.app (.var «$record-value?») [(.var «a»)]) (.ite (.app (.var «$record-value?») [(.var «b»)]) (.letv [.mk [«proc»] (.app (.var «record-equal-procedure»)
  [(.var «a»), (.var «b»)])] [(.ite (.var «proc») (.app (.var «proc») [(.var «a»), (.var «b»), (.var «equal?»)]) (.letv [.mk [«proc»] (.app (.var
  «default-record-equal-procedure») [])] [(.ite (.var «proc») (.app (.var «proc») [(.var «a»), (.var «b»), (.var «equal?»)]) (.app (.var «$equal?») [(.var «a»),
  (.var «b»)]))]))]) (.lit .fls)) (.app (.var «$equal?») [(.var «a»), (.var «b»)]))))))))])]))

/-- define equal-hash (prelude.min:1899-1934) -/
def prelude_114 : E := (.define [«equal-hash»] (.letrecv [.mk [«hash-pair»] (.lam ⟨[«p», «hc», «rec»], none⟩ [(.app (.var «rec») [(.app (.var «$cdr») [(.var
  «p»)]), (.app (.var «rec») [(.app (.var «$car») [(.var «p»)]), (.var «hc»)])])]), .mk [«hash-vector»] (.lam ⟨[«v», «hc», «rec»], none⟩ [(.letrecv [.mk
  [«loop»] (.lam ⟨[«i», «hc»], none⟩ [(.ite (.app (.var «>=») [(.var «i»), (.app (.var «$vector-length») [(.var «v»)])]) (.var «hc») (.app (.var «loop») [(.app
  (.var «add1») [(.var «i»)]), (.app (.var «rec») [(.app (.var «$vector-ref») [(.var «v»), (.var «i»)]), (.var «hc»)])]))])] [(.app (.var «loop») [(.lit (.const
  19)), (.var «hc»)])])])] [(.lam ⟨[«x»], none⟩ [(.letrecv [.mk [«loop»] (.lam ⟨[«x», «hc»], none⟩ [(.ite (.ite (.app (.var «symbol?») [(.var «x»)]) (.lit .tru)
  (.app (.var «string?») [(.var «x»)])) (.app (.var «$equal-hash») [(.var «x»)]) (.ite (.app (.var «pair?») [(.var «x»)]) (.app (.var «hash-pair») [(.var «x»),
  (.var «hc»), (.var «loop»)]) (.ite (.app (.var «vector?») [(.var «x»)]) (.app (.var «hash-vector») [(.var «x»), (.var «hc»), (.var «loop»)]) (.ite (.app (.var
  «box?») [(.var «x»)]) (.app (.var «loop») [(.app (.var «unbox») [(.var «x»)]), (.app (.var «+») [(.var «hc»), (.lit (.const 59))])]) (.ite (.app (.var
  «hashtable?») [(.var «x»)]) (.app (.var «loop») [(.app (.var «hashtable->list») [(.var «x»)]), (.var «hc»)]) (.ite (.app (.var «$record-value?») [(.var «x»)])
  (.letv [.mk [«proc»] (.app (.var «record-hash-procedure») [(.var «x»)])] [(.ite (.var «proc») (.app (.var «proc») [(.var «x»), (.var «equal-hash»)]) (.letv
  [.mk [«proc»] (.app (.var «default-record-hash-procedure») [])] [(.ite (.var «proc») (.app (.var «proc») [(.var «x»), (.var «equal-hash»)]) (.app (.var
  «eq-hash») [(.var «x»)]))]))]) (.app (.var «eq-hash») [(.var «x»)])))))))])] [(.app (.var «loop») [(.var «x»), (.lit (.const 60))])])])]))

/-- define read read-char peek-char char-ready? (prelude.min:1939-1952) -/
def prelude_115 : E := (.define [«read», «read-char», «peek-char», «char-ready?»] (.letv [.mk [«go»] (.lam ⟨[«name», «proc»], none⟩ [(.clam [.mk ⟨[], none⟩
  [(.app (.var «proc») [(.app (.var «current-input-port») [])])], .mk ⟨[«p»], none⟩ [(.ite (.app (.var «input-port?») [(.var «p»)]) (.app (.var «proc») [(.var
  «p»)]) (.app (.var «raise-argument-error») [(.var «name»), (.lit (.const 37)), (.var «p»)]))]])])] [(.app (.var .values) [(.app (.var «go») [(.quote (.sym
  «read»)), (.var «$read»)]), (.app (.var «go») [(.quote (.sym «read-char»)), (.var «$read-char»)]), (.app (.var «go») [(.quote (.sym «peek-char»)), (.var
  «$peek-char»)]), (.app (.var «go») [(.quote (.sym «char-ready?»)), (.var «$char-ready?»)])])]))

/-- define put-char (prelude.min:1957-1963) -/
def prelude_116 : E := (.define [«put-char»] (.lam ⟨[«p», «ch»], none⟩ [(.ite (.app (.var «output-port?») [(.var «p»)]) (.ite (.app (.var «char?») [(.var
  «ch»)]) (.app (.var «$put-char») [(.var «p»), (.var «ch»)]) (.app (.var «raise-argument-error») [(.quote (.sym «put-char»)), (.lit (.const 24)), (.var
  «ch»)])) (.app (.var «raise-argument-error») [(.quote (.sym «put-char»)), (.lit (.const 38)), (.var «ch»)]))]))

/-- define put-string (prelude.min:1965-2007) -/
def prelude_117 : E := (.define [«put-string»] (.letv [.mk [«non-output-port-error»] (.lam ⟨[«v»], none⟩ [(.app (.var «raise-argument-error») [(.quote (.sym
  «put-string»)), (.lit (.const 38)), (.var «v»)])]), .mk [«non-string-error»] (.lam ⟨[«v»], none⟩ [(.app (.var «raise-argument-error») [(.quote (.sym
  «put-string»)), (.lit (.const 28)), (.var «v»)])]), .mk [«non-integer-error»] (.lam ⟨[«v»], none⟩ [(.app (.var «raise-argument-error») [(.quote (.sym
  «put-string»)), (.lit (.const 25)), (.var «v»)])]), .mk [«1/put-string»] (.lam ⟨[«p», «s», «start», «n»], none⟩ [(.letv [.mk [«len»] (.app (.var
  «$string-length») [(.var «s»)])] [(.ite (.app (.var «<=») [(.var «start»), (.var «len»)]) (.ite (.app (.var «<=») [(.app (.var «+») [(.var «start»), (.var
  «n»)]), (.var «len»)]) (.app (.var «$put-string») [(.var «p»), (.var «s»), (.var «start»), (.var «n»)]) (.app (.var «raise-range-error») [(.quote (.sym
  «put-string»)), (.var «str»), (.lit (.const 61)), (.lit (.const 19)), (.app (.var «+») [(.var «len»), (.lit (.const 21))]), (.app (.var «+») [(.var «start»),
  (.var «n»)])])) (.app (.var «raise-range-error») [(.quote (.sym «put-string»)), (.var «str»), (.lit (.const 62)), (.lit (.const 19)), (.app (.var «+») [(.var
  «len»), (.lit (.const 21))]), (.var «start»)]))])])] [(.clam [.mk ⟨[«p», «s»], none⟩ [(.ite (.app (.var «output-port?») [(.var «p»)]) (.ite (.app (.var
  «string?») [(.var «s»)]) (.app (.var «$put-string») [(.var «p»), (.var «s»), (.lit (.const 19)), (.app (.var «$string-length») [(.var «s»)])]) (.app (.var
  «non-string-error») [(.var «s»)])) (.app (.var «non-output-port-error») [(.var «p»)]))], .mk ⟨[«p», «s», «start»], none⟩ [(.ite (.app (.var «output-port?»)
  [(.var «p»)]) (.ite (.app (.var «string?») [(.var «s»)]) (.ite (.app (.var «non-negative-integer?») [(.var «start»)]) (.app (.var «1/put-string») [(.var «p»),
  (.var «s»), (.var «start»), (.app (.var «-») [(.app (.var «$string-length») [(.var «s»)]), (.var «start»)])]) (.app (.var «non-integer-error») [(.var
  «start»)])) (.app (.var «non-string-error») [(.var «s»)])) (.app (.var «non-output-port-error») [(.var «p»)]))], .mk ⟨[«p», «s», «start», «n»], none⟩ [(.ite
  (.app (.var «output-port?») [(.var «p»)]) (.ite (.app (.var «string?») [(.var «s»)]) (.ite (.app (.var «non-negative-integer?») [(.var «start»)]) (.ite (.app
  (.var «non-negative-integer?») [(.var «n»)]) (.app (.var «1/put-string») [(.var «p»), (.var «s»), (.var «start»), (.var «n»)]) (.app (.var
  «non-integer-error») [(.var «start»)])) (.app (.var «non-integer-error») [(.var «start»)])) (.app (.var «non-string-error») [(.var «s»)])) (.app (.var
  «non-output-port-error») [(.var «p»)]))]])]))

/-- define flush-output-port (prelude.min:2009-2013) -/
def prelude_118 : E := (.define [«flush-output-port»] (.lam ⟨[«port»], none⟩ [(.ite (.app (.var «output-port?») [(.var «port»)]) (.app (.var
  «$flush-output-port») [(.var «port»)]) (.app (.var «raise-argument-error») [(.quote (.sym «flush-output-port»)), (.lit (.const 38)), (.var «port»)]))]))

/-- define write-char (prelude.min:2015-2026) -/
def prelude_119 : E := (.define [«write-char»] (.clam [.mk ⟨[«c»], none⟩ [(.ite (.app (.var «char?») [(.var «c»)]) (.app (.var «$write-char») [(.var «c»), (.app
  (.var «current-output-port») [])]) (.app (.var «raise-argument-error») [(.quote (.sym «write-char»)), (.lit (.const 24)), (.var «c»)]))], .mk ⟨[«c», «p»],
  none⟩ [(.ite (.app (.var «char?») [(.var «c»)]) (.ite (.app (.var «output-port?») [(.var «p»)]) (.app (.var «$write-char») [(.var «c»), (.var «p»)]) (.app
  (.var «raise-argument-error») [(.quote (.sym «write-char»)), (.lit (.const 38)), (.var «p»)])) (.app (.var «raise-argument-error») [(.quote (.sym
  «write-char»)), (.lit (.const 24)), (.var «c»)]))]]))

/-- define put-datum write display (prelude.min:2028-2158) -/
def prelude_120 : E := (.define [«put-datum», «write», «display»] (.letrecv [.mk [«lparen», «rparen»] (.app (.var .values) [(.lit (.const 63)), (.lit (.const
  64))]), .mk [«wr»] (.lam ⟨[«x», «d?», «p»], none⟩ [(.ite (.app (.var «symbol?») [(.var «x»)]) (.app (.var «put-string») [(.var «p»), (.app (.var
  «symbol->string») [(.var «x»)])]) (.ite (.app (.var «pair?») [(.var «x»)]) (.app (.var «wrpair») [(.var «x»), (.var «d?»), (.var «p»)]) (.ite (.app (.var
  «number?») [(.var «x»)]) (.app (.var «put-string») [(.var «p»), (.app (.var «number->string») [(.var «x»)])]) (.ite (.app (.var «null?») [(.var «x»)]) (.app
  (.var «put-string») [(.var «p»), (.lit (.const 65))]) (.ite (.app (.var «boolean?») [(.var «x»)]) (.app (.var «put-string») [(.var «p»), (.ite (.var «x»)
  (.lit (.const 66)) (.lit (.const 67)))]) (.ite (.app (.var «char?») [(.var «x»)]) (.ite (.var «d?») (.app (.var «put-char») [(.var «p»), (.var «x»)]) (.app
  (.var «wrchar») [(.var «x»), (.var «p»)])) (.ite (.app (.var «string?») [(.var «x»)]) (.ite (.var «d?») (.app (.var «put-string») [(.var «p»), (.var «x»)])
  (.app (.var «wrstring») [(.var «x»), (.var «p»)])) (.ite (.app (.var «vector?») [(.var «x»)]) (.app (.var «wrvector») [(.var «x»), (.var «d?»), (.var «p»)])
  (.ite (.app (.var «eof-object?») [(.var «x»)]) (.app (.var «put-string») [(.var «p»), (.lit (.const 68))]) (.ite (.app (.var «void?») [(.var «x»)]) (.app
  (.var «put-string») [(.var «p»), (.lit (.const 69))]) (.ite (.app (.var «input-port?») [(.var «x»)]) (.app (.var «put-string») [(.var «p»), (.lit (.const
  70))]) (.ite (.app (.var «output-port?») [(.var «x»)]) (.app (.var «put-string») [(.var «p»), (.lit (.const 71))]) (.ite (.app (.var «procedure?») [(.var
  «x»)]) (.app (.var «put-string») [(.var «p»), (.lit (.const 72))]) (.ite (.app (.var «syntax?») [(.var «x»)]) (.app (.var «wrsyntax») [(.var «x»), (.var
  «d?»), (.var «p»)]) (.ite (.app (.var «environment?») [(.var «x»)]) (.app (.var «put-string») [(.var «p»), (.lit (.const 73))]) (.ite (.app (.var
  «record-type-descriptor?») [(.var «x»)]) (.app (.var «wrrtd») [(.var «x»), (.var «d?»), (.var «p»)]) (.ite (.app (.var «$record-value?») [(.var «x»)]) (.app
  (.var «wrrecord») [(.var «x»), (.var «d?»), (.var «p»)]) (.app (.var «put-string») [(.var «p»), (.lit (.const 74))]))))))))))))))))))]), .mk [«wrchar»] (.lam
  ⟨[«x», «p»], none⟩ [(.app (.var «put-string») [(.var «p»), (.lit (.const 75))]), (.ite (.app (.var «eq?») [(.var «x»), (.lit (.const 76))]) (.app (.var
  «put-string») [(.var «p»), (.lit (.const 77))]) (.ite (.app (.var «eq?») [(.var «x»), (.lit (.const 78))]) (.app (.var «put-string») [(.var «p»), (.lit
  (.const 79))]) (.ite (.app (.var «eq?») [(.var «x»), (.lit (.const 80))]) (.app (.var «put-string») [(.var «p»), (.lit (.const 81))]) (.ite (.app (.var «eq?»)
  [(.var «x»), (.lit (.const 82))]) (.app (.var «put-string») [(.var «p»), (.lit (.const 83))]) (.ite (.app (.var «eq?») [(.var «x»), (.lit (.const 84))]) (.app
  (.var «put-string») [(.var «p»), (.lit (.const 85))]) (.ite (.app (.var «eq?») [(.var «x»), (.lit (.const 86))]) (.app (.var «put-string») [(.var «p»), (.lit
  (.const 87))]) (.ite (.app (.var «eq?») [(.var «x»), (.lit (.const 88))]) (.app (.var «put-string») [(.var «p»), (.lit (.const 89))]) (.ite (.app (.var «eq?»)
  [(.var «x»), (.lit (.const 90))]) (.app (.var «put-string») [(.var «p»), (.lit (.const 91))]) (.ite (.app (.var «eq?») [(.var «x»), (.lit (.const 92))]) (.app
  (.var «put-string») [(.var «p»), (.lit (.const 93))]) (.ite (.app (.var «eq?») [(.var «x»), (.lit (.const 94))]) (.app (.var «put-string») [(.var «p»), (.lit
  (.const 95))]) (.ite (.app (.var «eq?») [(.var «x»), (.lit (.const 96))]) (.app (.var «put-string») [(.var «p»), (.lit (.const 97))]) (.app (.var «put-char»)
  [(.var «p»), (.var «x»)]))))))))))))]), .mk [«wrstring»] (.lam ⟨[«x», «p»], none⟩ [(.app (.var «put-char») [(.var «p»), (.lit (.const 98))]), (.app (.var
  «for-each») [(.lam ⟨[«i»], none⟩ [(.letv [.mk [«c»] (.app (.var «string-ref») [(.var «x»), (.var «i»)])] [(.ite (.app (.var «eq?») [(.var «c»), (.lit (.const
  76))]) (.app (.var «put-string») [(.var «p»), (.lit (.const 99))]) (.ite (.app (.var «eq?») [(.var «c»), (.lit (.const 78))]) (.app (.var «put-string») [(.var
  «p»), (.lit (.const 100))]) (.ite (.app (.var «eq?») [(.var «c»), (.lit (.const 84))]) (.app (.var «put-string») [(.var «p»), (.lit (.const 101))]) (.ite
  (.app (.var «eq?») [(.var «c»), (.lit (.const 88))]) (.app (.var «put-string») [(.var «p»), (.lit (.const 102))]) (.ite (.app (.var «eq?») [(.var «c»), (.lit
  (.const 90))]) (.app (.var «put-string») [(.var «p»), (.lit (.const 103))]) (.ite (.app (.var «eq?») [(.var «c»), (.lit (.const 94))]) (.app (.var
  «put-string») [(.var «p»), (.lit (.const 104))]) (.ite (.app (.var «eq?») [(.var «c»), (.lit (.const 96))]) (.app (.var «put-string») [(.var «p»), (.lit
  (.const 105))]) (.ite (.app (.var «eq?») [(.var «c»), (.lit (.const 98))]) (.app (.var «put-string») [(.var «p»), (.lit (.const 106))]) (.ite (.app (.var
  «eq?») [(.var «c»), (.lit (.const 107))]) (.app (.var «put-string») [(.var «p»), (.lit (.const 108))]) (.app (.var «put-char») [(.var «p»), (.var
  «c»)]))))))))))])]), (.app (.var «iota») [(.app (.var «string-length») [(.var «x»)])])]), (.app (.var «put-char») [(.var «p»), (.lit (.const 98))])]), .mk
  [«wrpair»] (.lam ⟨[«x», «d?», «p»], none⟩ [(.app (.var «put-char») [(.var «p»), (.var «lparen»)]), (.letrecv [.mk [«loop»] (.lam ⟨[«x»], none⟩ [(.app (.var
  «wr») [(.app (.var «car») [(.var «x»)]), (.var «d?»), (.var «p»)]), (.ite (.app (.var «pair?») [(.app (.var «cdr») [(.var «x»)])]) (.begin [(.app (.var
  «put-char») [(.var «p»), (.lit (.const 92))]), (.app (.var «loop») [(.app (.var «cdr») [(.var «x»)])])]) (.ite (.app (.var «null?») [(.app (.var «cdr») [(.var
  «x»)])]) (.app (.var «void») []) (.begin [(.app (.var «put-string») [(.var «p»), (.lit (.const 109))]), (.app (.var «wr») [(.app (.var «cdr») [(.var «x»)]),
  (.var «d?»), (.var «p»)])])))])] [(.app (.var «loop») [(.var «x»)])]), (.app (.var «put-char») [(.var «p»), (.var «rparen»)])]), .mk [«wrvector»] (.lam ⟨[«x»,
  «d?», «p»], none⟩ [(.app (.var «put-char») [(.var «p»), (.lit (.const 110))]), (.letrecv [.mk [«n»] (.app (.var «vector-length») [(.var «x»)]), .mk [«loop»]
  (.lam ⟨[«i», «sep»], none⟩ [(.ite (.app (.var «>=») [(.var «i»), (.var «n»)]) (.app (.var «void») []) (.begin [(.app (.var «put-char») [(.var «p»), (.var
  «sep»)]), (.app (.var «wr») [(.app (.var «vector-ref») [(.var «x»), (.var «i»)]), (.var «d?»), (.var «p»)]), (.app (.var «loop») [(.app (.var «+») [(.var
  «i»), (.lit (.const 21))]), (.lit (.const 92))])]))])] [(.app (.var «loop») [(.lit (.const 19)), (.var «lparen»)])]), (.app (.var «put-char») [(.var «p»),
  (.var «rparen»)])]), .mk [«wrrtd»] (.lam ⟨[«x», «d?», «p»], none⟩ [(.app (.var «put-string») [(.var «p»), (.lit (.const 111))]), (.app (.var «wr») [(.app
  (.var «record-type-name») [(.var «x»)]), (.var «d?»), (.var «p»)]), (.app (.var «put-char») [(.var «p»), (.lit (.const 112))])]), .mk [«wrrecord»] (.lam
  ⟨[«x», «d?», «p»], none⟩ [(.letv [.mk [«proc»] (.app (.var «record-writer») [(.app (.var «$record-rtd») [(.var «x»)])])] [(.ite (.var «proc») (.app (.var
  «proc») [(.var «x»), (.var «p»), (.var «d?»)]) (.begin [(.app (.var «put-string») [(.var «p»), (.lit (.const 113))]), (.app (.var «wr») [(.app (.var
  «record-type-name») [(.app (.var «$record-rtd») [(.var «x»)])]), (.var «d?»), (.var «p»)]), (.app (.var «put-char») [(.var «p»), (.lit (.const 112))])]))])]),
  .mk [«wrsyntax»] (.lam ⟨[«x», «d?», «p»], none⟩ [(.app (.var «put-string») [(.var «p»), (.lit (.const 114))]), (.app (.var «wr») [(.app (.var «syntax->datum»)
  [(.var «x»)]), (.var «d?»), (.var «p»)]), (.app (.var «put-char») [(.var «p»), (.lit (.const 112))])]), .mk [«go»] (.lam ⟨[«who», «x», «d?», «p»], none⟩
  [(.ite (.app (.var «output-port?») [(.var «p»)]) (.app (.var «wr») [(.var «x»), (.var «d?»), (.var «p»)]) (.app (.var «raise-argument-error») [(.var «who»),
  (.lit (.const 38)), (.var «p»)]))])] [(.app (.var .values) [(.lam ⟨[«p», «x»], none⟩ [(.app (.var «go») [(.quote (.sym «put-datum»)), (.var «x»), (.lit .fls),
  (.var «p»)])]), (.clam [.mk ⟨[«o»], none⟩ [(.app (.var «go») [(.quote (.sym «write»)), (.var «o»), (.lit .fls), (.app (.var «current-output-port») [])])], .mk
  ⟨[«o», «p»], none⟩ [(.app (.var «go») [(.quote (.sym «write»)), (.var «o»), (.lit .fls), (.var «p»)])]]), (.clam [.mk ⟨[«o»], none⟩ [(.app (.var «go»)
  [(.quote (.sym «display»)), (.var «o»), (.lit .tru), (.app (.var «current-output-port») [])])], .mk ⟨[«o», «p»], none⟩ [(.app (.var «go») [(.quote (.sym
  «display»)), (.var «o»), (.lit .tru), (.var «p»)])]])])]))

/-- define newline (prelude.min:2160-2167) -/
def prelude_121 : E := (.define [«newline»] (.clam [.mk ⟨[], none⟩ [(.app (.var «$newline») [(.app (.var «current-output-port») [])])], .mk ⟨[«p»], none⟩ [(.ite
  (.app (.var «output-port?») [(.var «p»)]) (.app (.var «$newline») [(.var «p»)]) (.app (.var «raise-argument-error») [(.quote (.sym «newline»)), (.lit (.const
  115)), (.var «p»)]))]]))

/-- define fprintf printf eprintf format (prelude.min:2172-2259) -/
def prelude_122 : E := (.define [«fprintf», «printf», «eprintf», «format»] (.letrecv [.mk [«fmt-args»] (.lam ⟨[«who», «fmt»], none⟩ [(.letrecv [.mk [«len»]
  (.app (.var «string-length») [(.var «fmt»)]), .mk [«loop»] (.lam ⟨[«n», «args»], none⟩ [(.ite (.app (.var «>=») [(.var «n»), (.var «len»)]) (.app (.var
  «reverse») [(.var «args»)]) (.letv [.mk [«c»] (.app (.var «string-ref») [(.var «fmt»), (.var «n»)])] [(.ite (.app (.var «eq?») [(.var «c»), (.lit (.const
  116))]) (.ite (.app (.var «>=») [(.app (.var «+») [(.var «n»), (.lit (.const 21))]), (.var «len»)]) (.app (.var «errorf») [(.var «who»), (.lit (.const 117)),
  (.var «fmt»)]) (.letv [.mk [«nc»] (.app (.var «string-ref») [(.var «fmt»), (.app (.var «+») [(.var «n»), (.lit (.const 21))])])] [(.ite (.ite (.app (.var
  «eq?») [(.var «nc»), (.lit (.const 27))]) (.lit .tru) (.app (.var «eq?») [(.var «nc»), (.lit (.const 118))])) (.app (.var «loop») [(.app (.var «+») [(.var
  «n»), (.lit (.const 33))]), (.app (.var «cons») [(.lit .fls), (.var «args»)])]) (.ite (.ite (.app (.var «eq?») [(.var «nc»), (.lit (.const 119))]) (.lit .tru)
  (.app (.var «eq?») [(.var «nc»), (.lit (.const 120))])) (.app (.var «loop») [(.app (.var «+») [(.var «n»), (.lit (.const 33))]), (.app (.var «cons») [(.lit
  .fls), (.var «args»)])]) (.ite (.app (.var «eq?») [(.var «nc»), (.lit (.const 121))]) (.app (.var «loop») [(.app (.var «+») [(.var «n»), (.lit (.const 33))]),
  (.var «args»)]) (.ite (.app (.var «eq?») [(.var «nc»), (.lit (.const 116))]) (.app (.var «loop») [(.app (.var «+») [(.var «n»), (.lit (.const 33))]), (.var
  «xs»)]) (.app (.var «errorf») [(.var «who»), (.lit (.const 122)), (.var «nc»)])))))])) (.app (.var «loop») [(.app (.var «+») [(.var «n»), (.lit (.const
  21))]), (.var «args»)]))]))])] [(.app (.var «loop») [(.lit (.const 19)), (.quote .null)])])]), .mk [«check-format!»] (.lam ⟨[«who», «fmt», «args»], none⟩
  [(.letv [.mk [«fmt-preds»] (.app (.var «fmt-args») [(.var «who»), (.var «fmt»)])] [(.ite (.app (.var «=») [(.app (.var «length») [(.var «fmt-preds»)]), (.app
  (.var «length») [(.var «args»)])]) (.app (.var «for-each») [(.lam ⟨[«fmt-pred», «arg»], none⟩ [(.ite (.ite (.var «fmt-pred») (.app (.var «fmt-pred») [(.var
  «arg»)]) (.lit .tru)) (.app (.var «void») []) (.app (.var «errorf») [(.var «who»), (.lit (.const 123)), (.var «fmt-pred»), (.var «arg»)]))]), (.var
  «fmt-preds»), (.var «args»)]) (.app (.var «errorf») [(.var «who»), (.lit (.const 124)), (.app (.var «length») [(.var «fmt-preds»)]), (.app (.var «length»)
  [(.var «args»)])]))])]), .mk [«do-format»] (.lam ⟨[«p», «fmt», «args»], none⟩ [(.letrecv [.mk [«len»] (.app (.var «string-length») [(.var «fmt»)]), .mk
  [«loop»] (.lam ⟨[«n», «xs»], none⟩ [(.ite (.app (.var «>=») [(.var «n»), (.var «len»)]) (.app (.var «void») []) (.letv [.mk [«c»] (.app (.var «string-ref»)
  [(.var «fmt»), (.var «n»)])] [(.ite (.app (.var «eq?») [(.var «c»), (.lit (.const 116))]) (.letv [.mk [«nc»] (.app (.var «string-ref») [(.var «fmt»), (.app
  (.var «+») [(.var «n»), (.lit (.const 21))])])] [(.ite (.ite (.app (.var «eq?») [(.var «nc»), (.lit (.const 27))]) (.lit .tru) (.app (.var «eq?») [(.var
  «nc»), (.lit (.const 118))])) (.begin [(.app (.var «display») [(.app (.var «car») [(.var «xs»)]), (.var «p»)]), (.app (.var «loop») [(.app (.var «+») [(.var
  «n»), (.lit (.const 33))]), (.app (.var «cdr») [(.var «xs»)])])]) (.ite (.ite (.app (.var «eq?») [(.var «nc»), (.lit (.const 119))]) (.lit .tru) (.app (.var
  «eq?») [(.var «nc»), (.lit (.const 120))])) (.begin [(.app (.var «write») [(.app (.var «car») [(.var «xs»)]), (.var «p»)]), (.app (.var «loop») [(.app (.var
  «+») [(.var «n»), (.lit (.const 33))]), (.app (.var «cdr») [(.var «xs»)])])]) (.ite (.app (.var «eq?») [(.var «nc»), (.lit (.const 121))]) (.begin [(.app
  (.var «newline») [(.var «p»)]), (.app (.var «loop») [(.app (.var «+») [(.var «n»), (.lit (.const 33))]), (.var «xs»)])]) (.begin [(.app (.var «put-char»)
  [(.var «p»), (.lit (.const 116))]), (.app (.var «loop») [(.app (.var «+») [(.var «n»), (.lit (.const 33))]), (.var «xs»)])]))))]) (.begin [(.app (.var
  «put-char») [(.var «p»), (.var «c»)]), (.app (.var «loop») [(.app (.var «+») [(.var «n»), (.lit (.const 21))]), (.var «xs»)])]))]))])] [(.app (.var «loop»)
  [(.lit (.const 19)), (.var «args»)])])])] [(.app (.var .values) [(.lam ⟨[«p», «fmt»], some «args»⟩ [(.ite (.app (.var «output-port?») [(.var «p»)]) (.begin
  [(.app (.var «check-format!») [(.quote (.sym «fprintf»)), (.var «fmt»), (.var «args»)]), (.app (.var «do-format») [(.var «p»), (.var «fmt»), (.var «args»)])])
  (.app (.var «raise-argument-error») [(.quote (.sym «fprintf»)), (.lit (.const 115)), (.var «fmt»)]))]), (.lam ⟨[«fmt»], some «args»⟩ [(.app (.var
  «check-format!») [(.quote (.sym «printf»)), (.var «fmt»), (.var «args»)]), (.app (.var «do-format») [(.app (.var «current-output-port») []), (.var «fmt»),
  (.var «args»)])]), (.lam ⟨[«fmt»], some «args»⟩ [(.app (.var «check-format!») [(.quote (.sym «eprintf»)), (.var «fmt»), (.var «args»)]), (.app (.var
  «do-format») [(.app (.var «current-error-port») []), (.var «fmt»), (.var «args»)])]), (.lam ⟨[«fmt»], some «args»⟩ [(.app (.var «check-format!») [(.quote
  (.sym «format»)), (.var «fmt»), (.var «args»)]), (.letv [.mk [«p»] (.app (.var «open-output-string») [])] [(.app (.var «do-format») [(.var «p»), (.var «fmt»),
  (.var «args»)]), (.app (.var «get-output-string») [(.var «p»)])])])])]))

/-- define fasl-read (prelude.min:2265-2269) -/
def prelude_123 : E := (.define [«fasl-read»] (.lam ⟨[«port»], none⟩ [(.ite (.app (.var «input-port?») [(.var «port»)]) (.app (.var «$fasl-read») [(.var
  «port»)]) (.app (.var «raise-argument-error») [(.quote (.sym «fasl-read»)), (.lit (.const 37)), (.var «port»)]))]))

/-- define fasl-write (prelude.min:2271-2275) -/
def prelude_124 : E := (.define [«fasl-write»] (.lam ⟨[«x», «port»], none⟩ [(.ite (.app (.var «output-port?») [(.var «port»)]) (.app (.var «$fasl-write») [(.var
  «x»), (.var «port»)]) (.app (.var «raise-argument-error») [(.quote (.sym «fasl-write»)), (.lit (.const 38)), (.var «port»)]))]))

/-- define syntax-e (prelude.min:2280-2284) -/
def prelude_125 : E := (.define [«syntax-e»] (.lam ⟨[«stx»], none⟩ [(.ite (.app (.var «syntax?») [(.var «stx»)]) (.app (.var «$syntax-e») [(.var «stx»)]) (.app
  (.var «raise-argument-error») [(.quote (.sym «syntax-e»)), (.lit (.const 125)), (.var «stx»)]))]))

/-- define syntax-loc (prelude.min:2286-2290) -/
def prelude_126 : E := (.define [«syntax-loc»] (.lam ⟨[«stx»], none⟩ [(.ite (.app (.var «syntax?») [(.var «stx»)]) (.app (.var «$syntax-loc») [(.var «stx»)])
  (.app (.var «raise-argument-error») [(.quote (.sym «syntax-loc»)), (.lit (.const 125)), (.var «stx»)]))]))

/-- define syntax->datum (prelude.min:2292-2296) -/
def prelude_127 : E := (.define [«syntax->datum»] (.lam ⟨[«stx»], none⟩ [(.ite (.app (.var «syntax?») [(.var «stx»)]) (.app (.var «$syntax->datum») [(.var
  «stx»)]) (.app (.var «raise-argument-error») [(.quote (.sym «syntax->datum»)), (.lit (.const 125)), (.var «stx»)]))]))

/-- define syntax->list (prelude.min:2298-2302) -/
def prelude_128 : E := (.define [«syntax->list»] (.lam ⟨[«stx»], none⟩ [(.ite (.app (.var «syntax?») [(.var «stx»)]) (.app (.var «$syntax->list») [(.var
  «stx»)]) (.app (.var «raise-argument-error») [(.quote (.sym «syntax->list»)), (.lit (.const 125)), (.var «stx»)]))]))

/-- define make-pattern-variable pattern-variable? pattern-variable-value pattern-variable-depth (prelude.min:2307-2325) -/
def prelude_129 : E := (.define [«make-pattern-variable», «pattern-variable?», «pattern-variable-value», «pattern-variable-depth»] (.letv [.mk [«$pvar»] (.app
  (.var «make-record-type-descriptor») [(.quote (.sym «pattern-variable»)), (.lit .fls), (.lit .fls), (.lit .tru), (.lit .tru), (.lit (.const 126))])] [(.app
  (.var .values) [(.letv [.mk [«$make-pvar»] (.app (.var «record-constructor») [(.var «$pvar»)])] [(.lam ⟨[«x», «depth»], none⟩ [(.ite (.ite (.app (.var
  «integer?») [(.var «depth»)]) (.app (.var «>=») [(.var «depth»), (.lit (.const 19))]) (.lit .fls)) (.app (.var «$make-pvar») [(.var «x»), (.var «depth»)])
  (.app (.var «raise-argument-error») [(.quote (.sym «make-pattern-variable»)), (.lit (.const 26)), (.var «depth»)]))])]), (.app (.var «record-predicate»)
  [(.var «$pvar»)]), (.app (.var «record-accessor») [(.var «$pvar»), (.lit (.const 19))]), (.app (.var «record-accessor») [(.var «$pvar»), (.lit (.const
  21))])])]))

/-- define copy-environment (prelude.min:2330-2343) -/
def prelude_130 : E := (.define [«copy-environment»] (.letrecv [.mk [«1/copy-environment»] (.lam ⟨[«env», «mutable?», «syms»], none⟩ [(.ite (.app (.var
  «environment?») [(.var «env»)]) (.ite (.app (.var «boolean?») [(.var «mutable?»)]) (.ite (.app (.var «andmap») [(.var «symbol?»), (.var «syms»)]) (.app (.var
  «$copy-environment») [(.var «env»), (.var «mutable?»), (.var «syms»)]) (.app (.var «raise-argument-error») [(.quote (.sym «copy-environment»)), (.lit (.const
  127)), (.var «syms»)])) (.app (.var «raise-argument-error») [(.quote (.sym «copy-environment»)), (.lit (.const 41)), (.var «mutable?»)])) (.app (.var
  «raise-argument-error») [(.quote (.sym «copy-environment»)), (.lit (.const 128)), (.var «env»)]))])] [(.clam [.mk ⟨[«env»], none⟩ [(.app (.var
  «1/copy-environment») [(.var «env»), (.lit .tru), (.app (.var «environment-symbols») [(.var «env»)])])], .mk ⟨[«env», «mutable?»], none⟩ [(.app (.var
  «1/copy-environment») [(.var «env»), (.var «mutable?»), (.app (.var «environment-symbols») [(.var «env»)])])], .mk ⟨[«env», «mutable?», «syms»], none⟩ [(.app
  (.var «1/copy-environment») [(.var «env»), (.var «mutable?»), (.var «syms»)])]])]))

/-- define environment-symbols (prelude.min:2345-2349) -/
def prelude_131 : E := (.define [«environment-symbols»] (.lam ⟨[«env»], none⟩ [(.ite (.app (.var «environment?») [(.var «env»)]) (.app (.var
  «$environment-symbols») [(.var «env»)]) (.app (.var «raise-argument-error») [(.quote (.sym «environment-symbols»)), (.lit (.const 128)), (.var «env»)]))]))

/-- define environment-ref (prelude.min:2351-2371) -/
def prelude_132 : E := (.define [«environment-ref»] (.letrecv [.mk [«default-fail»] (.lam ⟨[«env», «k»], none⟩ [(.app (.var «raise-missing-error») [(.quote
  (.sym «environment-ref»)), (.lit (.const 56)), (.var «env»), (.var «k»)])]), .mk [«1/environment-ref»] (.lam ⟨[«env», «k», «fail»], none⟩ [(.ite (.app (.var
  «environment?») [(.var «env»)]) (.ite (.app (.var «symbol?») [(.var «k»)]) (.letv [.mk [«v»] (.app (.var «$environment-ref») [(.var «env»), (.var «k»), (.var
  «fail»)])] [(.ite (.app (.var «eq?») [(.var «v»), (.var «fail»)]) (.ite (.app (.var «procedure?») [(.var «fail»)]) (.app (.var «fail») []) (.var «fail»))
  (.var «v»))]) (.app (.var «raise-arugment-error») [(.quote (.sym «environment-ref»)), (.lit (.const 23)), (.var «k»)])) (.app (.var «raise-arugment-error»)
  [(.quote (.sym «environment-ref»)), (.lit (.const 128)), (.var «env»)]))])] [(.clam [.mk ⟨[«env», «k»], none⟩ [(.app (.var «1/environment-ref») [(.var «env»),
  (.var «k»), (.var «default-fail»)])], .mk ⟨[«env», «k», «fail»], none⟩ [(.app (.var «1/environment-ref») [(.var «env»), (.var «k»), (.var «fail»)])]])]))

/-- define environment-set! (prelude.min:2373-2379) -/
def prelude_133 : E := (.define [«environment-set!»] (.lam ⟨[«env», «k», «v»], none⟩ [(.ite (.app (.var «environment?») [(.var «env»)]) (.ite (.app (.var
  «symbol?») [(.var «k»)]) (.app (.var «$environment-set!») [(.var «env»), (.var «k»), (.var «v»)]) (.app (.var «raise-argument-error») [(.quote (.sym
  «environment-set!»)), (.lit (.const 23)), (.var «k»)])) (.app (.var «raise-argument-error») [(.quote (.sym «environment-set!»)), (.lit (.const 128)), (.var
  «env»)]))]))

/-- define current-environment (prelude.min:2381-2387) -/
def prelude_134 : E := (.define [«current-environment»] (.clam [.mk ⟨[], none⟩ [(.app (.var «$current-environment») [])], .mk ⟨[«env»], none⟩ [(.ite (.app (.var
  «environment?») [(.var «env»)]) (.app (.var «$current-environment-set!») [(.var «env»)]) (.app (.var «raise-argument-error») [(.quote (.sym
  «current-environment»)), (.lit (.const 128)), (.var «env»)]))]]))

/-- define load (prelude.min:2392-2396) -/
def prelude_135 : E := (.define [«load»] (.lam ⟨[«fname»], none⟩ [(.ite (.app (.var «string?») [(.var «fname»)]) (.app (.var «$load») [(.var «fname»)]) (.app
  (.var «raise-argument-error») [(.quote (.sym «load»)), (.lit (.const 28)), (.var «fname»)]))]))

/-- define exit (prelude.min:2398-2404) -/
def prelude_136 : E := (.define [«exit»] (.clam [.mk ⟨[], none⟩ [(.app (.var «$exit») [(.lit (.const 19))])], .mk ⟨[«v»], none⟩ [(.ite (.ite (.app (.var
  «integer?») [(.var «v»)]) (.app (.var «<=») [(.lit (.const 19)), (.var «v»), (.lit (.const 129))]) (.lit .fls)) (.app (.var «$exit») [(.var «v»)]) (.app (.var
  «raise-argument-error») [(.quote (.sym «exit»)), (.lit (.const 130)), (.var «v»)]))]]))

/-- define current-directory (prelude.min:2407-2414) -/
def prelude_137 : E := (.define [«current-directory»] (.clam [.mk ⟨[], none⟩ [(.app (.var «$current-directory») [])], .mk ⟨[«path»], none⟩ [(.ite (.app (.var
  «string?») [(.var «path»)]) (.app (.var «$current-directory-set!») [(.var «path»)]) (.app (.var «raise-argument-error») [(.quote (.sym «current-directory»)),
  (.lit (.const 28)), (.var «path»)]))]]))

/-- define current-error-handler (prelude.min:2420-2427) -/
def prelude_138 : E := (.define [«current-error-handler»] (.clam [.mk ⟨[], none⟩ [(.app (.var «$current-error-handler») [])], .mk ⟨[«proc»], none⟩ [(.ite (.app
  (.var «procedure?») [(.var «proc»)]) (.app (.var «$current-error-handler-set!») [(.var «proc»)]) (.app (.var «raise-argument-error») [(.quote (.sym
  «current-error-handler»)), (.lit (.const 22)), (.var «proc»)]))]]))

/-- define &exn make-exn exn? exn-who exn-message (prelude.min:2430-2436) -/
def prelude_139 : E := (.define [«&exn», «make-exn», «exn?», «exn-who», «exn-message»] (.letv [.mk [«&exn»] (.app (.var «make-record-type-descriptor») [(.quote
  (.sym «&exn»)), (.lit .fls), (.lit .fls), (.lit .tru), (.lit .tru), (.lit (.const 131))])] [(.app (.var .values) [(.var «&exn»), (.app (.var
  «record-constructor») [(.var «&exn»)]), (.app (.var «record-predicate») [(.var «&exn»)]), (.app (.var «record-accessor») [(.var «&exn»), (.lit (.const 19))]),
  (.app (.var «record-accessor») [(.var «&exn»), (.lit (.const 21))])])]))

/-- define &argument make-argument-exn argument-exn? argument-exn-expect argument-exn-actual (prelude.min:2439-2445) -/
def prelude_140 : E := (.define [«&argument», «make-argument-exn», «argument-exn?», «argument-exn-expect», «argument-exn-actual»] (.letv [.mk [«&argument»]
  (.app (.var «make-record-type-descriptor») [(.quote (.sym «&argument-exn»)), (.var «&exn»), (.lit .fls), (.lit .tru), (.lit .tru), (.lit (.const 132))])]
  [(.app (.var .values) [(.var «&argument»), (.app (.var «record-constructor») [(.var «&argument»)]), (.app (.var «record-predicate») [(.var «&argument»)]),
  (.app (.var «record-accessor») [(.var «&argument»), (.lit (.const 19))]), (.app (.var «record-accessor») [(.var «&argument»), (.lit (.const 21))])])]))

/-- define &arity make-arity-exn arity-exn? arity-exn-expect arity-exn-actual (prelude.min:2448-2454) -/
def prelude_141 : E := (.define [«&arity», «make-arity-exn», «arity-exn?», «arity-exn-expect», «arity-exn-actual»] (.letv [.mk [«&arity»] (.app (.var
  «make-record-type-descriptor») [(.quote (.sym «&arity-exn»)), (.var «&exn»), (.lit .fls), (.lit .tru), (.lit .tru), (.lit (.const 132))])] [(.app (.var
  .values) [(.var «&arity»), (.app (.var «record-constructor») [(.var «&arity»)]), (.app (.var «record-predicate») [(.var «&arity»)]), (.app (.var
  «record-accessor») [(.var «&arity»), (.lit (.const 19))]), (.app (.var «record-accessor») [(.var «&arity»), (.lit (.const 21))])])]))

/-- define &range make-range-exn range-exn? range-exn-value range-exn-description range-exn-lower range-exn-upper range-exn-index (prelude.min:2457-2466) -/
def prelude_142 : E := (.define [«&range», «make-range-exn», «range-exn?», «range-exn-value», «range-exn-description», «range-exn-lower», «range-exn-upper»,
  «range-exn-index»] (.letv [.mk [«&range»] (.app (.var «make-record-type-descriptor») [(.quote (.sym «&range-exn»)), (.var «&exn»), (.lit .fls), (.lit .tru),
  (.lit .tru), (.lit (.const 133))])] [(.app (.var .values) [(.var «&range»), (.app (.var «record-constructor») [(.var «&range»)]), (.app (.var
  «record-predicate») [(.var «&range»)]), (.app (.var «record-accessor») [(.var «&range»), (.lit (.const 19))]), (.app (.var «record-accessor») [(.var
  «&range»), (.lit (.const 21))]), (.app (.var «record-accessor») [(.var «&range»), (.lit (.const 33))]), (.app (.var «record-accessor») [(.var «&range»), (.lit
  (.const 134))]), (.app (.var «record-accessor») [(.var «&range»), (.lit (.const 55))])])]))

/-- define &missing make-missing-exn missing-exn? missing-exn-description missing-exn-value missing-exn-key (prelude.min:2469-2476) -/
def prelude_143 : E := (.define [«&missing», «make-missing-exn», «missing-exn?», «missing-exn-description», «missing-exn-value», «missing-exn-key»] (.letv [.mk
  [«&missing»] (.app (.var «make-record-type-descriptor») [(.quote (.sym «&missing-exn»)), (.var «&exn»), (.lit .fls), (.lit .tru), (.lit .tru), (.lit (.const
  135))])] [(.app (.var .values) [(.var «&missing»), (.app (.var «record-constructor») [(.var «&missing»)]), (.app (.var «record-predicate») [(.var
  «&missing»)]), (.app (.var «record-accessor») [(.var «&missing»), (.lit (.const 19))]), (.app (.var «record-accessor») [(.var «&missing»), (.lit (.const
  21))]), (.app (.var «record-accessor») [(.var «&missing»), (.lit (.const 33))])])]))

/-- define &syntax make-syntax-exn syntax-exn? syntax-exn-form syntax-exn-subform (prelude.min:2479-2485) -/
def prelude_144 : E := (.define [«&syntax», «make-syntax-exn», «syntax-exn?», «syntax-exn-form», «syntax-exn-subform»] (.letv [.mk [«&syntax»] (.app (.var
  «make-record-type-descriptor») [(.quote (.sym «&syntax-exn»)), (.var «&exn»), (.lit .fls), (.lit .tru), (.lit .tru), (.lit (.const 136))])] [(.app (.var
  .values) [(.var «&syntax»), (.app (.var «record-constructor») [(.var «&syntax»)]), (.app (.var «record-predicate») [(.var «&syntax»)]), (.app (.var
  «record-accessor») [(.var «&syntax»), (.lit (.const 19))]), (.app (.var «record-accessor») [(.var «&syntax»), (.lit (.const 21))])])]))

/-- define default-error-handler (prelude.min:2488-2553) -/
def prelude_145 : E := (.define [«default-error-handler»] (.letv [.mk [«display-exn»] (.lam ⟨[«exn»], none⟩ [(.ite (.app (.var «exn-who») [(.var «exn»)]) (.app
  (.var «eprintf») [(.lit (.const 137)), (.app (.var «exn-who») [(.var «exn»)]), (.app (.var «exn-message») [(.var «exn»)])]) (.app (.var «eprintf») [(.lit
  (.const 138)), (.app (.var «exn-message») [(.var «exn»)])]))]), .mk [«display-arity»] (.lam ⟨[«x»], none⟩ [(.ite (.app (.var «number?») [(.var «x»)]) (.app
  (.var «eprintf») [(.lit (.const 139)), (.var «x»)]) (.letrecv [.mk [«loop»] (.lam ⟨[«x»], none⟩ [(.ite (.app (.var «null?») [(.var «x»)]) (.app (.var
  «eprintf») [(.lit (.const 140))]) (.ite (.app (.var «cdr») [(.var «x»)]) (.begin [(.app (.var «eprintf») [(.lit (.const 141)), (.app (.var «car») [(.var
  «x»)])]), (.app (.var «loop») [(.app (.var «cdr») [(.var «x»)])])]) (.app (.var «eprintf») [(.lit (.const 142)), (.app (.var «car») [(.var «x»)])])))])]
  [(.ite (.app (.var «cdr») [(.var «x»)]) (.begin [(.app (.var «eprintf») [(.lit (.const 50)), (.app (.var «car») [(.var «x»)])]), (.app (.var «loop») [(.app
  (.var «cdr») [(.var «x»)])])]) (.app (.var «eprintf») [(.lit (.const 143)), (.app (.var «car») [(.var «x»)])]))]))])] [(.lam ⟨[«exn»], none⟩ [(.ite (.app
  (.var «argument-exn?») [(.var «exn»)]) (.begin [(.app (.var «display-exn») [(.var «exn»)]), (.app (.var «eprintf») [(.lit (.const 144)), (.app (.var
  «argument-exn-expect») [(.var «exn»)])]), (.app (.var «eprintf») [(.lit (.const 145)), (.app (.var «argument-exn-actual») [(.var «exn»)])])]) (.ite (.app
  (.var «arity-exn?») [(.var «exn»)]) (.begin [(.app (.var «display-exn») [(.var «exn»)]), (.app (.var «eprintf») [(.lit (.const 146))]), (.app (.var
  «display-arity») [(.app (.var «arity-exn-expect») [(.var «exn»)])]), (.app (.var «eprintf») [(.lit (.const 145)), (.app (.var «arity-exn-actual») [(.var
  «exn»)])])]) (.ite (.app (.var «range-exn?») [(.var «exn»)]) (.begin [(.app (.var «display-exn») [(.var «exn»)]), (.app (.var «eprintf») [(.lit (.const 147)),
  (.app (.var «range-exn-lower») [(.var «exn»)]), (.app (.var «range-exn-upper») [(.var «exn»)])]), (.ite (.app (.var «=») [(.app (.var «string-length») [(.app
  (.var «range-exn-description») [(.var «exn»)])]), (.lit (.const 19))]) (.app (.var «eprintf») [(.lit (.const 148)), (.app (.var «range-exn-index») [(.var
  «exn»)])]) (.app (.var «eprintf») [(.lit (.const 149)), (.app (.var «range-exn-description») [(.var «exn»)]), (.app (.var «range-exn-index») [(.var
  «exn»)])])), (.app (.var «eprintf») [(.lit (.const 150)), (.app (.var «range-exn-value») [(.var «exn»)])])]) (.ite (.app (.var «missing-exn?») [(.var «exn»)])
  (.begin [(.app (.var «display-exn») [(.var «exn»)]), (.app (.var «eprintf») [(.lit (.const 151)), (.app (.var «missing-exn-description») [(.var «exn»)]),
  (.app (.var «missing-exn-key») [(.var «exn»)])]), (.app (.var «eprintf») [(.lit (.const 150)), (.app (.var «missing-exn-value») [(.var «exn»)])])]) (.ite
  (.app (.var «syntax-exn?») [(.var «exn»)]) (.begin [(.app (.var «display-exn») [(.var «exn»)]), (.ite (.app (.var «syntax-exn-form») [(.var «exn»)]) (.app
  (.var «eprintf») [(.lit (.const 150)), (.app (.var «syntax-exn-form») [(.var «exn»)])]) (.app (.var «void») [])), (.ite (.app (.var «syntax-exn-subform»)
  [(.var «exn»)]) (.app (.var «eprintf») [(.lit (.const 152)), (.app (.var «syntax-exn-subform») [(.var «exn»)])]) (.app (.var «void») []))]) (.ite (.app (.var
  «exn?») [(.var «exn»)]) (.app (.var «display-exn») [(.var «exn»)]) (.app (.var «eprintf») [(.lit (.const 153)), (.var «exn»)]))))))), (.app (.var «exit»)
  [(.lit (.const 21))])])]))

/-- call of current-error-handler (prelude.min:2555-2555) -/
def prelude_146 : E := (.app (.var «current-error-handler») [(.var «default-error-handler»)])

/-- set! error (prelude.min:2557-2573) -/
def prelude_147 : E := (.set «error» (.lam ⟨[«who», «msg»], some «args»⟩ [(.ite (.ite (.var «who») (.ite (.app (.var «symbol?») [(.var «who»)]) (.lit .tru)
  (.app (.var «string?») [(.var «who»)])) (.lit .tru)) (.ite (.app (.var «string?») [(.var «msg»)]) (.app (.var «raise») [(.ite (.app (.var «null?») [(.var
  «args»)]) (.app (.var «make-exn») [(.var «who»), (.var «msg»)]) (.letv [.mk [«p»] (.app (.var «open-output-string») [])] [(.app (.var «fprintf») [(.var «p»),
  (.lit (.const 139)), (.var «msg»)]), (.ite (.app (.var «null?») [(.app (.var «cdr») [(.var «args»)])]) (.app (.var «fprintf») [(.var «p»), (.lit (.const
  154)), (.app (.var «car») [(.var «args»)])]) (.begin [(.app (.var «fprintf») [(.var «p»), (.lit (.const 155))]), (.app (.var «for-each») [(.lam ⟨[«x»], none⟩
  [(.app (.var «fprintf») [(.var «p»), (.lit (.const 156)), (.var «x»)])]), (.var «args»)])])), (.app (.var «make-exn») [(.var «who»), (.app (.var
  «get-output-string») [(.var «p»)])])]))]) (.app (.var «raise-argument-error») [(.quote (.sym «error»)), (.lit (.const 28)), (.var «msg»)])) (.app (.var
  «raise-argument-error») [(.quote (.sym «error»)), (.lit (.const 157)), (.var «who»)]))]))

/-- set! errorf (prelude.min:2575-2581) -/
def prelude_148 : E := (.set «errorf» (.lam ⟨[«who», «fmt»], some «args»⟩ [(.ite (.ite (.var «who») (.app (.var «symbol?») [(.var «who»)]) (.lit .tru)) (.ite
  (.app (.var «string?») [(.var «fmt»)]) (.app (.var «error») [(.var «who»), (.app (.var «apply») [(.var «format»), (.var «fmt»), (.var «args»)])]) (.app (.var
  «raise-argument-error») [(.quote (.sym «errorf»)), (.lit (.const 28)), (.var «fmt»)])) (.app (.var «raise-argument-error») [(.quote (.sym «errorf»)), (.lit
  (.const 42)), (.var «who»)]))]))

/-- set! raise-arity-error (prelude.min:2583-2589) -/
def prelude_149 : E := (.set «raise-arity-error» (.lam ⟨[«who», «arity», «cnt»], none⟩ [(.ite (.ite (.var «who») (.app (.var «symbol?») [(.var «who»)]) (.lit
  .tru)) (.ite (.app (.var «procedure-arity?») [(.var «arity»)]) (.app (.var «raise») [(.app (.var «make-arity-exn») [(.var «who»), (.lit (.const 2)), (.var
  «arity»), (.var «cnt»)])]) (.app (.var «raise-argument-error») [(.quote (.sym «raise-arity-error»)), (.lit (.const 158)), (.var «arity»)])) (.app (.var
  «raise-argument-error») [(.quote (.sym «raise-arity-error»)), (.lit (.const 42)), (.var «who»)]))]))

/-- set! raise-argument-error (prelude.min:2591-2597) -/
def prelude_150 : E := (.set «raise-argument-error» (.lam ⟨[«who», «expected», «v»], none⟩ [(.ite (.ite (.var «who») (.app (.var «symbol?») [(.var «who»)])
  (.lit .tru)) (.ite (.app (.var «string?») [(.var «expected»)]) (.app (.var «raise») [(.app (.var «make-argument-exn») [(.var «who»), (.lit (.const 1)), (.var
  «expected»), (.var «v»)])]) (.app (.var «raise-argument-error») [(.quote (.sym «raise-argument-error»)), (.lit (.const 28)), (.var «expected»)])) (.app (.var
  «raise-argument-error») [(.quote (.sym «raise-argument-error»)), (.lit (.const 42)), (.var «who»)]))]))

/-- set! raise-range-error (prelude.min:2599-2614) -/
def prelude_151 : E := (.set «raise-range-error» (.lam ⟨[«who», «v», «descr», «lower», «upper», «index»], none⟩ [(.ite (.ite (.var «who») (.app (.var «symbol?»)
  [(.var «who»)]) (.lit .tru)) (.ite (.app (.var «string?») [(.var «descr»)]) (.ite (.app (.var «integer?») [(.var «lower»)]) (.ite (.app (.var «integer?»)
  [(.var «upper»)]) (.ite (.app (.var «integer?») [(.var «index»)]) (.letv [.mk [«msg»] (.ite (.app (.var «=») [(.app (.var «string-length») [(.var «descr»)]),
  (.lit (.const 19))]) (.lit (.const 3)) (.app (.var «format») [(.lit (.const 159)), (.var «descr»)]))] [(.app (.var «raise») [(.app (.var «make-range-exn»)
  [(.var «who»), (.var «msg»), (.var «v»), (.var «descr»), (.var «lower»), (.var «upper»), (.var «index»)])])]) (.app (.var «raise-argument-error») [(.quote
  (.sym «raise-range-error»)), (.lit (.const 25)), (.var «index»)])) (.app (.var «raise-argument-error») [(.quote (.sym «raise-range-error»)), (.lit (.const
  25)), (.var «upper»)])) (.app (.var «raise-argument-error») [(.quote (.sym «raise-range-error»)), (.lit (.const 25)), (.var «lower»)])) (.app (.var
  «raise-argument-error») [(.quote (.sym «raise-range-error»)), (.lit (.const 28)), (.var «descr»)])) (.app (.var «raise-argument-error») [(.quote (.sym
  «raise-range-error»)), (.lit (.const 42)), (.var «who»)]))]))

/-- set! raise-missing-error (prelude.min:2616-2622) -/
def prelude_152 : E := (.set «raise-missing-error» (.lam ⟨[«who», «descr», «x», «k»], none⟩ [(.ite (.ite (.var «who») (.app (.var «symbol?») [(.var «who»)])
  (.lit .tru)) (.ite (.app (.var «string?») [(.var «descr»)]) (.app (.var «raise») [(.app (.var «make-missing-exn») [(.var «who»), (.app (.var «format») [(.lit
  (.const 160)), (.var «descr»)]), (.var «descr»), (.var «x»), (.var «k»)])]) (.app (.var «raise-argument-error») [(.quote (.sym «raise-argument-error»)), (.lit
  (.const 28)), (.var «descr»)])) (.app (.var «raise-argument-error») [(.quote (.sym «raise-argument-error»)), (.lit (.const 42)), (.var «who»)]))]))

/-- define raise-syntax-error (prelude.min:2624-2644) -/
def prelude_153 : E := (.define [«raise-syntax-error»] (.letv [.mk [«$raise-syntax-error»] (.lam ⟨[«who», «msg», «stx», «sub-stx»], none⟩ [(.ite (.ite (.var
  «who») (.app (.var «symbol?») [(.var «who»)]) (.lit .tru)) (.ite (.app (.var «string?») [(.var «msg»)]) (.ite (.ite (.var «stx») (.app (.var «syntax?») [(.var
  «stx»)]) (.lit .tru)) (.ite (.ite (.var «sub-stx») (.app (.var «syntax?») [(.var «sub-stx»)]) (.lit .tru)) (.app (.var «raise») [(.app (.var
  «make-syntax-exn») [(.var «who»), (.var «msg»), (.ite (.app (.var «syntax?») [(.var «stx»)]) (.app (.var «$syntax->datum») [(.var «stx»)]) (.lit .fls)), (.ite
  (.app (.var «syntax?») [(.var «sub-stx»)]) (.app (.var «$syntax->datum») [(.var «sub-stx»)]) (.lit .fls))])]) (.app (.var «raise-argument-error») [(.quote
  (.sym «syntax-error»)), (.lit (.const 161)), (.var «sub-stx»)])) (.app (.var «raise-argument-error») [(.quote (.sym «syntax-error»)), (.lit (.const 161)),
  (.var «stx»)])) (.app (.var «raise-argument-error») [(.quote (.sym «syntax-error»)), (.lit (.const 162)), (.var «msg»)])) (.app (.var «raise-argument-error»)
  [(.quote (.sym «syntax-error»)), (.lit (.const 42)), (.var «who»)]))])] [(.clam [.mk ⟨[«who», «msg»], none⟩ [(.app (.var «$raise-syntax-error») [(.var «who»),
  (.var «msg»), (.lit .fls), (.lit .fls)])], .mk ⟨[«who», «msg», «stx»], none⟩ [(.app (.var «$raise-syntax-error») [(.var «who»), (.var «msg»), (.var «stx»),
  (.lit .fls)])], .mk ⟨[«who», «msg», «stx», «sub-stx»], none⟩ [(.app (.var «$raise-syntax-error») [(.var «who»), (.var «msg»), (.var «stx»), (.var
  «sub-stx»)])]])]))

/-- The expressions of prelude.min, in order. -/
def prelude : List E := [prelude_1, prelude_2, prelude_3, prelude_4, prelude_5, prelude_6, prelude_7, prelude_8, prelude_9, prelude_10, prelude_11, prelude_12,
  prelude_13, prelude_14, prelude_15, prelude_16, prelude_17, prelude_18, prelude_19, prelude_20, prelude_21, prelude_22, prelude_23, prelude_24, prelude_25,
  prelude_26, prelude_27, prelude_28, prelude_29, prelude_30, prelude_31, prelude_32, prelude_33, prelude_34, prelude_35, prelude_36, prelude_37, prelude_38,
  prelude_39, prelude_40, prelude_41, prelude_42, prelude_43, prelude_44, prelude_45, prelude_46, prelude_47, prelude_48, prelude_49, prelude_50, prelude_51,
  prelude_52, prelude_53, prelude_54, prelude_55, prelude_56, prelude_57, prelude_58, prelude_59, prelude_60, prelude_61, prelude_62, prelude_63, prelude_64,
  prelude_65, prelude_66, prelude_67, prelude_68, prelude_69, prelude_70, prelude_71, prelude_72, prelude_73, prelude_74, prelude_75, prelude_76, prelude_77,
  prelude_78, prelude_79, prelude_80, prelude_81, prelude_82, prelude_83, prelude_84, prelude_85, prelude_86, prelude_87, prelude_88, prelude_89, prelude_90,
  prelude_91, prelude_92, prelude_93, prelude_94, prelude_95, prelude_96, prelude_97, prelude_98, prelude_99, prelude_100, prelude_101, prelude_102,
  prelude_103, prelude_104, prelude_105, prelude_106, prelude_107, prelude_108, prelude_109, prelude_110, prelude_111, prelude_112, prelude_113, prelude_114,
  prelude_115, prelude_116, prelude_117, prelude_118, prelude_119, prelude_120, prelude_121, prelude_122, prelude_123, prelude_124, prelude_125, prelude_126,
  prelude_127, prelude_128, prelude_129, prelude_130, prelude_131, prelude_132, prelude_133, prelude_134, prelude_135, prelude_136, prelude_137, prelude_138,
  prelude_139, prelude_140, prelude_141, prelude_142, prelude_143, prelude_144, prelude_145, prelude_146, prelude_147, prelude_148, prelude_149, prelude_150,
  prelude_151, prelude_152, prelude_153]

end Minim.Lib
