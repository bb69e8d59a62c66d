import Verif.LibNames

/-!
# The code of boot.min (C104)

Written by `tools/gen_code.py`: the expressions of the file, in order.  Literals are numbered:
19 is 0; 21 is 1; 22 is "procedure?"; 23 is "symbol?"; 26 is "non-negative-integer?"; 27 is #\a; 28 is "string?"; 29 is ""; 30 is #\0; 31 is "list?"; 33 is 2;
  37 is "input-port?"; 49 is "record-type-descriptor?"; 55 is 4; 61 is "end"; 62 is "start"; 84 is #\newline; 92 is #\space; 98 is #\"; 107 is #\\; 110 is #\#;
  118 is #\A; 119 is #\s; 134 is 3; 152 is "  at: ~a\n"; 163 is "list contains too few elements: ~a"; 164 is 5; 165 is 6; 166 is 7; 167 is 8; 168 is 9; 169 is
  10; 170 is "index out of bounds ~a for ~a"; 171 is #\/; 172 is "/"; 173 is #((immutable name) (immutable methods)); 174 is "generics interface"; 175 is "list
  of procedures"; 176 is "number of procedures does not match interface"; 177 is "expected: ~a"; 178 is "got: ~a"; 179 is "method implementation does not match
  formals"; 180 is "method definition: ~a ~a"; 181 is "actual arity: ~a"; 182 is "method name not associated with generics interface"; 183 is "generic not
  associated with record type"; 184 is "non-sealed parent record"; 185 is #((immutable store)); 186 is "set?"; 187 is "identifier?"; 188 is -1; 189 is
  #((mutable bound) (mutable prev)); 190 is "bad syntax"; 191 is "not identifiers"; 192 is "expected an expression after identifiers"; 193 is "too many
  expressions"; 194 is "missing body"; 195 is "not a sequence of bindings"; 196 is "expected a sequence of expressions after the bindings"; 197 is "not
  identifier"; 198 is "expected an expression after identifier"; 199 is "missing formals"; 200 is "missing expression after formals"; 201 is "expected a
  sequence of expressions after formals"; 202 is "expected an expression"; 203 is "missing an \"else\" statement"; 204 is "duplicate identifier"; 205 is
  "malformed formals"; 206 is "~a: unknown variable `~a`\n"; 207 is "cannot check"; 208 is "result arity mismatch"; 209 is "expected 1"; 210 is "received"; 211
  is "transformer produced something other than syntax"; 212 is "last form is not an expression"; 213 is "expected"; 214 is "rocedure?"; 215 is "invalid
  application"; 216 is "bad import syntax"; 217 is "bad export syntax"; 218 is "undefined export"; 219 is "> "; 220 is "unknown module"; 221 is 40; 222 is 41;
  223 is 91; 224 is 93; 225 is 123; 226 is 125; 227 is #\;; 228 is #\9; 229 is #\f; 230 is #\F; 231 is #\-; 232 is #\+; 233 is "unexpected end of input"; 234 is
  "parenthesis mismatch, expected ~a"; 235 is "expected a delimeter"; 236 is #\|; 237 is "unexpected character ~a"; 238 is #\.; 239 is "missing closing
  parenthesis"; 240 is "incomplete character literal"; 241 is #\p; 242 is "pace"; 243 is #\n; 244 is #\e; 245 is "ewline"; 246 is 16; 247 is "non-terminated
  string literal"; 248 is "unknown escape character ~a"; 249 is #\t; 250 is #\'; 251 is #\&; 252 is #\x; 253 is "unknown special character ~a"; 254 is
  "unexpected input: ~a"
-/

set_option autoImplicit false
set_option maxRecDepth 4000

namespace Minim.Lib

open Minim.Sx Minim.Core S

/-- define cons* (boot.min:1-1) -/
def boot_1 : E := (.define [«cons*»] (.lam ⟨[«x»], some «xs»⟩ [(.letrecv [.mk [«loop»] (.lam ⟨[«x», «xs»], none⟩ [(.ite (.app (.var «null?») [(.var «xs»)])
  (.var «x») (.app (.var «cons») [(.var «x»), (.app (.var «loop») [(.app (.var «car») [(.var «xs»)]), (.app (.var «cdr») [(.var «xs»)])])]))])] [(.app (.var
  «loop») [(.var «x»), (.var «xs»)])])]))

/-- define first (boot.min:2-2) -/
def boot_2 : E := (.define [«first»] (.lam ⟨[«xs»], none⟩ [(.ite (.app (.var «list?») [(.var «xs»)]) (.app (.var «car») [(.var «xs»)]) (.app (.var
  «raise-argument-error») [(.quote (.sym «first»)), (.lit (.const 31)), (.var «xs»)]))]))

/-- define second (boot.min:3-3) -/
def boot_3 : E := (.define [«second»] (.lam ⟨[«lst»], none⟩ [(.ite (.app (.var «list?») [(.var «lst»)]) (.letrecv [.mk [«loop»] (.lam ⟨[«xs», «pos»], none⟩
  [(.ite (.app (.var «pair?») [(.var «xs»)]) (.ite (.app (.var «=») [(.var «pos»), (.lit (.const 21))]) (.app (.var «car») [(.var «xs»)]) (.app (.var «loop»)
  [(.app (.var «cdr») [(.var «xs»)]), (.app (.var «-») [(.var «pos»), (.lit (.const 21))])])) (.app (.var «errorf») [(.quote (.sym «second»)), (.lit (.const
  163)), (.var «lst»)]))])] [(.app (.var «loop») [(.var «lst»), (.lit (.const 33))])]) (.app (.var «raise-argument-error») [(.quote (.sym «second»)), (.lit
  (.const 31)), (.var «lst»)]))]))

/-- define third (boot.min:4-4) -/
def boot_4 : E := (.define [«third»] (.lam ⟨[«lst»], none⟩ [(.ite (.app (.var «list?») [(.var «lst»)]) (.letrecv [.mk [«loop»] (.lam ⟨[«xs», «pos»], none⟩
  [(.ite (.app (.var «pair?») [(.var «xs»)]) (.ite (.app (.var «=») [(.var «pos»), (.lit (.const 21))]) (.app (.var «car») [(.var «xs»)]) (.app (.var «loop»)
  [(.app (.var «cdr») [(.var «xs»)]), (.app (.var «-») [(.var «pos»), (.lit (.const 21))])])) (.app (.var «errorf») [(.quote (.sym «third»)), (.lit (.const
  163)), (.var «lst»)]))])] [(.app (.var «loop») [(.var «lst»), (.lit (.const 134))])]) (.app (.var «raise-argument-error») [(.quote (.sym «third»)), (.lit
  (.const 31)), (.var «lst»)]))]))

/-- define fourth (boot.min:5-5) -/
def boot_5 : E := (.define [«fourth»] (.lam ⟨[«lst»], none⟩ [(.ite (.app (.var «list?») [(.var «lst»)]) (.letrecv [.mk [«loop»] (.lam ⟨[«xs», «pos»], none⟩
  [(.ite (.app (.var «pair?») [(.var «xs»)]) (.ite (.app (.var «=») [(.var «pos»), (.lit (.const 21))]) (.app (.var «car») [(.var «xs»)]) (.app (.var «loop»)
  [(.app (.var «cdr») [(.var «xs»)]), (.app (.var «-») [(.var «pos»), (.lit (.const 21))])])) (.app (.var «errorf») [(.quote (.sym «fourth»)), (.lit (.const
  163)), (.var «lst»)]))])] [(.app (.var «loop») [(.var «lst»), (.lit (.const 55))])]) (.app (.var «raise-argument-error») [(.quote (.sym «fourth»)), (.lit
  (.const 31)), (.var «lst»)]))]))

/-- define fifth (boot.min:6-6) -/
def boot_6 : E := (.define [«fifth»] (.lam ⟨[«lst»], none⟩ [(.ite (.app (.var «list?») [(.var «lst»)]) (.letrecv [.mk [«loop»] (.lam ⟨[«xs», «pos»], none⟩
  [(.ite (.app (.var «pair?») [(.var «xs»)]) (.ite (.app (.var «=») [(.var «pos»), (.lit (.const 21))]) (.app (.var «car») [(.var «xs»)]) (.app (.var «loop»)
  [(.app (.var «cdr») [(.var «xs»)]), (.app (.var «-») [(.var «pos»), (.lit (.const 21))])])) (.app (.var «errorf») [(.quote (.sym «fifth»)), (.lit (.const
  163)), (.var «lst»)]))])] [(.app (.var «loop») [(.var «lst»), (.lit (.const 164))])]) (.app (.var «raise-argument-error») [(.quote (.sym «fifth»)), (.lit
  (.const 31)), (.var «lst»)]))]))

/-- define sixth (boot.min:7-7) -/
def boot_7 : E := (.define [«sixth»] (.lam ⟨[«lst»], none⟩ [(.ite (.app (.var «list?») [(.var «lst»)]) (.letrecv [.mk [«loop»] (.lam ⟨[«xs», «pos»], none⟩
  [(.ite (.app (.var «pair?») [(.var «xs»)]) (.ite (.app (.var «=») [(.var «pos»), (.lit (.const 21))]) (.app (.var «car») [(.var «xs»)]) (.app (.var «loop»)
  [(.app (.var «cdr») [(.var «xs»)]), (.app (.var «-») [(.var «pos»), (.lit (.const 21))])])) (.app (.var «errorf») [(.quote (.sym «sixth»)), (.lit (.const
  163)), (.var «lst»)]))])] [(.app (.var «loop») [(.var «lst»), (.lit (.const 165))])]) (.app (.var «raise-argument-error») [(.quote (.sym «sixth»)), (.lit
  (.const 31)), (.var «lst»)]))]))

/-- define seventh (boot.min:8-8) -/
def boot_8 : E := (.define [«seventh»] (.lam ⟨[«lst»], none⟩ [(.ite (.app (.var «list?») [(.var «lst»)]) (.letrecv [.mk [«loop»] (.lam ⟨[«xs», «pos»], none⟩
  [(.ite (.app (.var «pair?») [(.var «xs»)]) (.ite (.app (.var «=») [(.var «pos»), (.lit (.const 21))]) (.app (.var «car») [(.var «xs»)]) (.app (.var «loop»)
  [(.app (.var «cdr») [(.var «xs»)]), (.app (.var «-») [(.var «pos»), (.lit (.const 21))])])) (.app (.var «errorf») [(.quote (.sym «seventh»)), (.lit (.const
  163)), (.var «lst»)]))])] [(.app (.var «loop») [(.var «lst»), (.lit (.const 166))])]) (.app (.var «raise-argument-error») [(.quote (.sym «seventh»)), (.lit
  (.const 31)), (.var «lst»)]))]))

/-- define eighth (boot.min:9-9) -/
def boot_9 : E := (.define [«eighth»] (.lam ⟨[«lst»], none⟩ [(.ite (.app (.var «list?») [(.var «lst»)]) (.letrecv [.mk [«loop»] (.lam ⟨[«xs», «pos»], none⟩
  [(.ite (.app (.var «pair?») [(.var «xs»)]) (.ite (.app (.var «=») [(.var «pos»), (.lit (.const 21))]) (.app (.var «car») [(.var «xs»)]) (.app (.var «loop»)
  [(.app (.var «cdr») [(.var «xs»)]), (.app (.var «-») [(.var «pos»), (.lit (.const 21))])])) (.app (.var «errorf») [(.quote (.sym «eighth»)), (.lit (.const
  163)), (.var «lst»)]))])] [(.app (.var «loop») [(.var «lst»), (.lit (.const 167))])]) (.app (.var «raise-argument-error») [(.quote (.sym «eighth»)), (.lit
  (.const 31)), (.var «lst»)]))]))

/-- define ninth (boot.min:10-10) -/
def boot_10 : E := (.define [«ninth»] (.lam ⟨[«lst»], none⟩ [(.ite (.app (.var «list?») [(.var «lst»)]) (.letrecv [.mk [«loop»] (.lam ⟨[«xs», «pos»], none⟩
  [(.ite (.app (.var «pair?») [(.var «xs»)]) (.ite (.app (.var «=») [(.var «pos»), (.lit (.const 21))]) (.app (.var «car») [(.var «xs»)]) (.app (.var «loop»)
  [(.app (.var «cdr») [(.var «xs»)]), (.app (.var «-») [(.var «pos»), (.lit (.const 21))])])) (.app (.var «errorf») [(.quote (.sym «ninth»)), (.lit (.const
  163)), (.var «lst»)]))])] [(.app (.var «loop») [(.var «lst»), (.lit (.const 168))])]) (.app (.var «raise-argument-error») [(.quote (.sym «ninth»)), (.lit
  (.const 31)), (.var «lst»)]))]))

/-- define tenth (boot.min:11-11) -/
def boot_11 : E := (.define [«tenth»] (.lam ⟨[«lst»], none⟩ [(.ite (.app (.var «list?») [(.var «lst»)]) (.letrecv [.mk [«loop»] (.lam ⟨[«xs», «pos»], none⟩
  [(.ite (.app (.var «pair?») [(.var «xs»)]) (.ite (.app (.var «=») [(.var «pos»), (.lit (.const 21))]) (.app (.var «car») [(.var «xs»)]) (.app (.var «loop»)
  [(.app (.var «cdr») [(.var «xs»)]), (.app (.var «-») [(.var «pos»), (.lit (.const 21))])])) (.app (.var «errorf») [(.quote (.sym «tenth»)), (.lit (.const
  163)), (.var «lst»)]))])] [(.app (.var «loop») [(.var «lst»), (.lit (.const 169))])]) (.app (.var «raise-argument-error») [(.quote (.sym «tenth»)), (.lit
  (.const 31)), (.var «lst»)]))]))

/-- define list-ref (boot.min:12-12) -/
def boot_12 : E := (.define [«list-ref»] (.lam ⟨[«lst», «k»], none⟩ [(.ite (.app (.var «non-negative-integer?») [(.var «k»)]) (.app (.var «void») []) (.letv []
  [(.app (.var «raise-argument-error») [(.quote (.sym «list-ref»)), (.lit (.const 26)), (.var «k»)])])), (.letrecv [.mk [«loop»] (.lam ⟨[«xs», «i»], none⟩
  [(.ite (.app (.var «null?») [(.var «xs»)]) (.app (.var «errorf») [(.quote (.sym «list-ref»)), (.lit (.const 170)), (.var «k»), (.var «lst»)]) (.ite (.app
  (.var «=») [(.var «i»), (.var «k»)]) (.app (.var «car») [(.var «xs»)]) (.app (.var «loop») [(.app (.var «cdr») [(.var «xs»)]), (.app (.var «+») [(.var «i»),
  (.lit (.const 21))])])))])] [(.app (.var «loop») [(.var «lst»), (.lit (.const 19))])])]))

/-- define member (boot.min:13-13) -/
def boot_13 : E := (.define [«member»] (.lam ⟨[«k», «xs»], none⟩ [(.letrecv [.mk [«loop»] (.lam ⟨[«xs»], none⟩ [(.ite (.app (.var «null?») [(.var «xs»)]) (.lit
  .fls) (.ite (.app (.var «pair?») [(.var «xs»)]) (.ite (.app (.var «equal?») [(.app (.var «car») [(.var «xs»)]), (.var «k»)]) (.app (.var «car») [(.var «xs»)])
  (.app (.var «loop») [(.app (.var «cdr») [(.var «xs»)])])) (.app (.var «raise-argument-error») [(.quote (.sym «member»)), (.lit (.const 31)), (.var
  «xs»)])))])] [(.app (.var «loop») [(.var «xs»)])])]))

/-- define remove (boot.min:14-14) -/
def boot_14 : E := (.define [«remove»] (.lam ⟨[«k», «xs»], none⟩ [(.letrecv [.mk [«loop»] (.lam ⟨[«xs»], none⟩ [(.ite (.app (.var «null?») [(.var «xs»)])
  (.quote .null) (.ite (.app (.var «pair?») [(.var «xs»)]) (.ite (.app (.var «equal?») [(.app (.var «car») [(.var «xs»)]), (.var «k»)]) (.app (.var «loop»)
  [(.app (.var «cdr») [(.var «xs»)])]) (.app (.var «cons») [(.app (.var «car») [(.var «xs»)]), (.app (.var «loop») [(.app (.var «cdr») [(.var «xs»)])])])) (.app
  (.var «raise-argument-error») [(.quote (.sym «remove»)), (.lit (.const 31)), (.var «xs»)])))])] [(.app (.var «loop») [(.var «xs»)])])]))

/-- define remove* (boot.min:15-15) -/
def boot_15 : E := (.define [«remove*»] (.lam ⟨[«ks», «xs»], none⟩ [(.ite (.app (.var «list?») [(.var «ks»)]) (.app (.var «void») []) (.letv [] [(.app (.var
  «raise-argument-error») [(.quote (.sym «remove*»)), (.lit (.const 31)), (.var «ks»)])])), (.letrecv [.mk [«loop»] (.lam ⟨[«ks», «xs»], none⟩ [(.ite (.app
  (.var «null?») [(.var «ks»)]) (.var «xs») (.ite (.app (.var «null?») [(.var «xs»)]) (.quote .null) (.app (.var «loop») [(.app (.var «cdr») [(.var «ks»)]),
  (.letrecv [.mk [«loop2»] (.lam ⟨[«xs»], none⟩ [(.ite (.app (.var «null?») [(.var «xs»)]) (.quote .null) (.ite (.app (.var «pair?») [(.var «xs»)]) (.ite (.app
  (.var «equal?») [(.app (.var «car») [(.var «xs»)]), (.app (.var «car») [(.var «ks»)])]) (.app (.var «loop2») [(.app (.var «cdr») [(.var «xs»)])]) (.app (.var
  «cons») [(.app (.var «car») [(.var «xs»)]), (.app (.var «loop2») [(.app (.var «cdr») [(.var «xs»)])])])) (.app (.var «raise-argument-error») [(.quote (.sym
  «remove*»)), (.lit (.const 31)), (.var «xs»)])))])] [(.app (.var «loop2») [(.var «xs»)])])])))])] [(.app (.var «loop») [(.var «ks»), (.var «xs»)])])]))

/-- define filter (boot.min:16-16) -/
def boot_16 : E := (.define [«filter»] (.lam ⟨[«f», «lst»], none⟩ [(.letrecv [.mk [«loop»] (.lam ⟨[«xs», «acc»], none⟩ [(.ite (.app (.var «null?») [(.var
  «xs»)]) (.app (.var «reverse») [(.var «acc»)]) (.ite (.app (.var «pair?») [(.var «xs»)]) (.ite (.app (.var «f») [(.app (.var «car») [(.var «xs»)])]) (.app
  (.var «loop») [(.app (.var «cdr») [(.var «xs»)]), (.app (.var «cons») [(.app (.var «car») [(.var «xs»)]), (.var «acc»)])]) (.app (.var «loop») [(.app (.var
  «cdr») [(.var «xs»)]), (.var «acc»)])) (.app (.var «raise-argument-error») [(.quote (.sym «filter»)), (.lit (.const 31)), (.var «lst»)])))])] [(.app (.var
  «loop») [(.var «lst»), (.quote .null)])])]))

/-- define foldl (boot.min:17-17) -/
def boot_17 : E := (.define [«foldl»] (.lam ⟨[«f», «acc», «lst»], none⟩ [(.letrecv [.mk [«loop»] (.lam ⟨[«xs», «acc»], none⟩ [(.ite (.app (.var «null?») [(.var
  «xs»)]) (.var «acc») (.ite (.app (.var «pair?») [(.var «xs»)]) (.app (.var «loop») [(.app (.var «cdr») [(.var «xs»)]), (.app (.var «f») [(.var «acc»), (.app
  (.var «car») [(.var «xs»)])])]) (.app (.var «raise-argument-error») [(.quote (.sym «foldl»)), (.lit (.const 31)), (.var «lst»)])))])] [(.app (.var «loop»)
  [(.var «lst»), (.var «acc»)])])]))

/-- define foldr (boot.min:18-18) -/
def boot_18 : E := (.define [«foldr»] (.lam ⟨[«f», «acc», «lst»], none⟩ [(.letrecv [.mk [«loop»] (.lam ⟨[«xs»], none⟩ [(.ite (.app (.var «null?») [(.var «xs»)])
  (.var «acc») (.ite (.app (.var «pair?») [(.var «xs»)]) (.app (.var «f») [(.app (.var «loop») [(.app (.var «cdr») [(.var «xs»)])]), (.app (.var «car») [(.var
  «xs»)])]) (.app (.var «raise-argument-error») [(.quote (.sym «foldr»)), (.lit (.const 31)), (.var «lst»)])))])] [(.app (.var «loop») [(.var «lst»)])])]))

/-- define assoc (boot.min:19-19) -/
def boot_19 : E := (.define [«assoc»] (.lam ⟨[«k», «lst»], none⟩ [(.letrecv [.mk [«loop»] (.lam ⟨[«xs»], none⟩ [(.ite (.app (.var «null?») [(.var «xs»)]) (.lit
  .fls) (.ite (.app (.var «not») [(.app (.var «pair?») [(.var «xs»)])]) (.app (.var «raise-argument-error») [(.quote (.sym «assoc»)), (.lit (.const 31)), (.var
  «lst»)]) (.ite (.app (.var «not») [(.app (.var «pair?») [(.app (.var «car») [(.var «xs»)])])]) (.app (.var «raise-argument-error») [(.quote (.sym «assoc»)),
  (.lit (.const 31)), (.var «lst»)]) (.ite (.app (.var «equal?») [(.var «k»), (.app (.var «caar») [(.var «xs»)])]) (.app (.var «car») [(.var «xs»)]) (.app (.var
  «loop») [(.app (.var «cdr») [(.var «xs»)])])))))])] [(.app (.var «loop») [(.var «lst»)])])]))

/-- define index-of (boot.min:20-20) -/
def boot_20 : E := (.define [«index-of»] (.lam ⟨[«k», «lst»], none⟩ [(.letrecv [.mk [«loop»] (.lam ⟨[«lst», «i»], none⟩ [(.ite (.app (.var «null?») [(.var
  «lst»)]) (.lit .fls) (.ite (.app (.var «equal?») [(.var «k»), (.app (.var «car») [(.var «lst»)])]) (.var «i») (.app (.var «loop») [(.app (.var «cdr») [(.var
  «lst»)]), (.app (.var «+») [(.var «i»), (.lit (.const 21))])])))])] [(.app (.var «loop») [(.var «lst»), (.lit (.const 19))])])]))

/-- define list-set (boot.min:21-21) -/
def boot_21 : E := (.define [«list-set»] (.lam ⟨[«lst», «k», «v»], none⟩ [(.ite (.app (.var «non-negative-integer?») [(.var «k»)]) (.app (.var «void») [])
  (.letv [] [(.app (.var «raise-argument-error») [(.quote (.sym «list-set»)), (.lit (.const 26)), (.var «k»)])])), (.letrecv [.mk [«loop»] (.lam ⟨[«xs», «i»,
  «xs*»], none⟩ [(.ite (.app (.var «null?») [(.var «xs»)]) (.app (.var «errorf») [(.quote (.sym «list-set»)), (.lit (.const 170)), (.var «k»), (.var «lst»)])
  (.ite (.app (.var «=») [(.var «i»), (.var «k»)]) (.app (.var «append») [(.app (.var «reverse») [(.var «xs*»)]), (.app (.var «cons») [(.var «v»), (.app (.var
  «cdr») [(.var «xs»)])])]) (.ite (.app (.var «pair?») [(.var «xs»)]) (.app (.var «loop») [(.app (.var «cdr») [(.var «xs»)]), (.app (.var «+») [(.var «i»),
  (.lit (.const 21))]), (.app (.var «cons») [(.app (.var «car») [(.var «xs»)]), (.var «xs*»)])]) (.app (.var «raise-argument-error») [(.quote (.sym
  «list-set»)), (.lit (.const 31)), (.var «lst»)]))))])] [(.app (.var «loop») [(.var «lst»), (.lit (.const 19)), (.quote .null)])])]))

/-- define is-absolute-path? (boot.min:22-22) -/
def boot_22 : E := (.define [«is-absolute-path?»] (.lam ⟨[«path»], none⟩ [(.ite (.app (.var «>») [(.app (.var «string-length») [(.var «path»)]), (.lit (.const
  19))]) (.app (.var «eq?») [(.app (.var «string-ref») [(.var «path»), (.lit (.const 19))]), (.lit (.const 171))]) (.lit .fls))]))

/-- define build-path (boot.min:23-23) -/
def boot_23 : E := (.define [«build-path»] (.lam ⟨[«base»], some «subpaths»⟩ [(.letrecv [.mk [«string-terminates-with-/?»] (.lam ⟨[«str»], none⟩ [(.letrecv [.mk
  [«len»] (.app (.var «string-length») [(.var «str»)])] [(.app (.var «eq?») [(.app (.var «string-ref») [(.var «str»), (.app (.var «-») [(.var «len»), (.lit
  (.const 21))])]), (.lit (.const 171))])])]), .mk [«paths»] (.letrecv [.mk [«loop»] (.lam ⟨[«paths», «accum»], none⟩ [(.ite (.app (.var «null?») [(.var
  «paths»)]) (.app (.var «reverse») [(.var «accum»)]) (.ite (.app (.var «=») [(.app (.var «string-length») [(.app (.var «car») [(.var «paths»)])]), (.lit
  (.const 19))]) (.app (.var «loop») [(.app (.var «cdr») [(.var «paths»)]), (.var «accum»)]) (.ite (.app (.var «string-terminates-with-/?») [(.app (.var «car»)
  [(.var «accum»)])]) (.app (.var «loop») [(.app (.var «cdr») [(.var «paths»)]), (.app (.var «cons») [(.app (.var «car») [(.var «paths»)]), (.var «accum»)])])
  (.app (.var «loop») [(.app (.var «cdr») [(.var «paths»)]), (.app (.var «cons») [(.app (.var «car») [(.var «paths»)]), (.app (.var «cons») [(.lit (.const
  172)), (.var «accum»)])])]))))])] [(.app (.var «loop») [(.var «subpaths»), (.app (.var «list») [(.var «base»)])])])] [(.app (.var «apply») [(.var
  «string-append»), (.var «paths»)])])]))

/-- define split-path (boot.min:24-24) -/
def boot_24 : E := (.define [«split-path»] (.lam ⟨[«path»], none⟩ [(.ite (.app (.var «string?») [(.var «path»)]) (.app (.var «void») []) (.letv [] [(.app (.var
  «raise-argument-error») [(.quote (.sym «split-path»)), (.lit (.const 28)), (.var «path»)])])), (.letrecv [.mk [«path-elems»] (.app (.var «reverse») [(.app
  (.var «path->list») [(.var «path»)])])] [(.ite (.app (.var «pair?») [(.app (.var «cdr») [(.var «path-elems»)])]) (.letv [] [(.letrecv [.mk [«end»] (.app (.var
  «car») [(.var «path-elems»)]), .mk [«rest»] (.app (.var «cdr») [(.var «path-elems»)])] [(.app (.var «cons») [(.app (.var «apply») [(.var «build-path»), (.app
  (.var «reverse») [(.var «rest»)])]), (.var «end»)])])]) (.app (.var «cons») [(.lit .fls), (.app (.var «car») [(.var «path-elems»)])]))])]))

/-- define path->list (boot.min:25-25) -/
def boot_25 : E := (.define [«path->list»] (.lam ⟨[«path»], none⟩ [(.ite (.app (.var «string?») [(.var «path»)]) (.app (.var «void») []) (.letv [] [(.app (.var
  «raise-argument-error») [(.quote (.sym «path->list»)), (.lit (.const 28)), (.var «path»)])])), (.letrecv [.mk [«loop»] (.lam ⟨[«path», «accum»], none⟩ [(.ite
  (.app (.var «=») [(.app (.var «string-length») [(.var «path»)]), (.lit (.const 19))]) (.app (.var «reverse») [(.var «accum»)]) (.letv [] [(.letrecv [.mk
  [«len»] (.app (.var «string-length») [(.var «path»)])] [(.letrecv [.mk [«loop2»] (.lam ⟨[«i»], none⟩ [(.ite (.app (.var «=») [(.var «i»), (.var «len»)]) (.app
  (.var «loop») [(.lit (.const 29)), (.app (.var «cons») [(.var «path»), (.var «accum»)])]) (.ite (.app (.var «eq?») [(.app (.var «string-ref») [(.var «path»),
  (.var «i»)]), (.lit (.const 171))]) (.ite (.app (.var «=») [(.var «i»), (.lit (.const 19))]) (.app (.var «loop») [(.app (.var «substring») [(.var «path»),
  (.lit (.const 21)), (.var «len»)]), (.app (.var «cons») [(.lit (.const 172)), (.var «accum»)])]) (.letv [] [(.letrecv [.mk [«elem»] (.app (.var «substring»)
  [(.var «path»), (.lit (.const 19)), (.var «i»)]), .mk [«rest»] (.app (.var «substring») [(.var «path»), (.app (.var «+») [(.var «i»), (.lit (.const 21))]),
  (.var «len»)])] [(.app (.var «loop») [(.var «rest»), (.app (.var «cons») [(.var «elem»), (.var «accum»)])])])])) (.app (.var «loop2») [(.app (.var «+») [(.var
  «i»), (.lit (.const 21))])])))])] [(.app (.var «loop2») [(.lit (.const 19))])])])]))])] [(.app (.var «loop») [(.var «path»), (.quote .null)])])]))

/-- define $generics-type (boot.min:26-26) -/
def boot_26 : E := (.define [«$generics-type»] (.app (.var «make-record-type-descriptor») [(.quote (.sym «generics»)), (.lit .fls), (.lit .fls), (.lit .fls),
  (.lit .fls), (.quote (.lit (.const 173)))]))

/-- define $generics-type? (boot.min:27-27) -/
def boot_27 : E := (.define [«$generics-type?»] (.app (.var «record-predicate») [(.var «$generics-type»)]))

/-- define $make-generics-type (boot.min:28-28) -/
def boot_28 : E := (.define [«$make-generics-type»] (.app (.var «record-constructor») [(.var «$generics-type»)]))

/-- define $generics-type-name (boot.min:29-29) -/
def boot_29 : E := (.define [«$generics-type-name»] (.app (.var «record-accessor») [(.var «$generics-type»), (.lit (.const 19))]))

/-- define $generics-type-methods (boot.min:30-30) -/
def boot_30 : E := (.define [«$generics-type-methods»] (.app (.var «record-accessor») [(.var «$generics-type»), (.lit (.const 21))]))

/-- define non-generics-type-error (boot.min:31-31) -/
def boot_31 : E := (.define [«non-generics-type-error»] (.lam ⟨[«who», «v»], none⟩ [(.app (.var «raise-argument-error») [(.var «who»), (.lit (.const 174)),
  (.var «v»)])]))

/-- define non-rtd-error (boot.min:32-32) -/
def boot_32 : E := (.define [«non-rtd-error»] (.lam ⟨[«who», «v»], none⟩ [(.app (.var «raise-argument-error») [(.var «who»), (.lit (.const 49)), (.var «v»)])]))

/-- define $generics-type-method-names (boot.min:33-33) -/
def boot_33 : E := (.define [«$generics-type-method-names»] (.lam ⟨[«generics»], none⟩ [(.ite (.app (.var «$generics-type?») [(.var «generics»)]) (.app (.var
  «void») []) (.letv [] [(.app (.var «non-generics-type-error») [(.quote (.sym «$generics-type-method-names»)), (.var «generics»)])])), (.app (.var «map»)
  [(.var «car»), (.app (.var «$generics-type-methods») [(.var «generics»)])])]))

/-- define $record-generics (boot.min:34-34) -/
def boot_34 : E := (.define [«$record-generics»] (.app (.var «make-hashtable») []))

/-- define record-type-add-generic! (boot.min:35-35) -/
def boot_35 : E := (.define [«record-type-add-generic!»] (.lam ⟨[«rtd», «generic», «impls»], none⟩ [(.ite (.app (.var «$generics-type?») [(.var «generic»)])
  (.app (.var «void») []) (.letv [] [(.app (.var «non-generics-type-error») [(.quote (.sym «record-type-add-generics!»)), (.var «generic»)])])), (.ite (.app
  (.var «record-type-descriptor?») [(.var «rtd»)]) (.app (.var «void») []) (.letv [] [(.app (.var «non-rtd-error») [(.quote (.sym «record-type-add-generics!»)),
  (.var «rtd»)])])), (.ite (.ite (.app (.var «list?») [(.var «impls»)]) (.app (.var «andmap») [(.var «procedure?»), (.var «impls»)]) (.lit .fls)) (.app (.var
  «void») []) (.letv [] [(.app (.var «raise-argument-error») [(.quote (.sym «record-type-add-generics!»)), (.lit (.const 175)), (.var «impls»)])])), (.letrecv
  [.mk [«names»] (.app (.var «$generics-type-method-names») [(.var «generic»)]), .mk [] (.letv [] [(.ite (.app (.var «=») [(.app (.var «length») [(.var
  «names»)]), (.app (.var «length») [(.var «impls»)])]) (.app (.var «void») []) (.letv [] [(.app (.var «error») [(.quote (.sym «record-type-add-generics!»)),
  (.lit (.const 176)), (.app (.var «format») [(.lit (.const 177)), (.app (.var «length») [(.var «names»)])]), (.app (.var «format») [(.lit (.const 178)), (.app
  (.var «length») [(.var «impls»)])])])])), (.app (.var .values) [])]), .mk [] (.letv [] [(.app (.var «for-each») [(.lam ⟨[«entry», «impl»], none⟩ [(.letrecv
  [.mk [«id»] (.app (.var «car») [(.var «entry»)]), .mk [«formals»] (.app (.var «cdr») [(.var «entry»)]), .mk [«expected-arity»] (.letrecv [.mk [«loop»] (.lam
  ⟨[«formals», «i»], none⟩ [(.ite (.app (.var «null?») [(.var «formals»)]) (.var «i») (.ite (.app (.var «symbol?») [(.var «formals»)]) (.app (.var «cons»)
  [(.var «i»), (.lit .fls)]) (.app (.var «loop») [(.app (.var «cdr») [(.var «formals»)]), (.app (.var «+») [(.var «i»), (.lit (.const 21))])])))])] [(.app (.var
  «loop») [(.var «formals»), (.lit (.const 19))])]), .mk [«arity»] (.app (.var «procedure-arity») [(.var «impl»)])] [(.ite (.app (.var «equal?») [(.var
  «arity»), (.var «expected-arity»)]) (.app (.var «void») []) (.letv [] [(.app (.var «error») [(.quote (.sym «record-type-add-generics!»)), (.lit (.const 179)),
  (.app (.var «format») [(.lit (.const 180)), (.var «id»), (.var «formals»)]), (.app (.var «format») [(.lit (.const 181)), (.var «arity»)])])]))])]), (.app
  (.var «$generics-type-methods») [(.var «generic»)]), (.var «impls»)]), (.app (.var .values) [])])] [(.app (.var «hashtable-set!») [(.var «$record-generics»),
  (.var «rtd»), (.ite (.app (.var «hashtable-contains?») [(.var «$record-generics»), (.var «rtd»)]) (.app (.var «cons») [(.app (.var «cons») [(.var «generic»),
  (.var «impls»)]), (.app (.var «hashtable-ref») [(.var «$record-generics»), (.var «rtd»)])]) (.app (.var «list») [(.app (.var «cons») [(.var «generic»), (.var
  «impls»)])]))])])]))

/-- define generics-accessor (boot.min:36-36) -/
def boot_36 : E := (.define [«generics-accessor»] (.lam ⟨[«generic», «name»], none⟩ [(.ite (.app (.var «$generics-type?») [(.var «generic»)]) (.app (.var
  «void») []) (.letv [] [(.app (.var «non-generics-type-error») [(.quote (.sym «generics-accessor»)), (.var «generic»)])])), (.ite (.app (.var «symbol?») [(.var
  «name»)]) (.app (.var «void») []) (.letv [] [(.app (.var «raise-argument-error») [(.quote (.sym «generics-accessor»)), (.lit (.const 23)), (.var
  «generic»)])])), (.letrecv [.mk [«idx»] (.app (.var «index-of») [(.var «name»), (.app (.var «$generics-type-method-names») [(.var «generic»)])]), .mk []
  (.letv [] [(.ite (.var «idx») (.app (.var «void») []) (.letv [] [(.app (.var «error») [(.quote (.sym «generics-accessor»)), (.lit (.const 182)), (.var
  «name»)])])), (.app (.var .values) [])])] [(.lam ⟨[«rtd»], none⟩ [(.ite (.app (.var «record-type-descriptor?») [(.var «rtd»)]) (.app (.var «void») []) (.letv
  [] [(.app (.var «non-rtd-error») [(.lit .fls), (.var «rtd»)])])), (.letrecv [.mk [«rtd-generics»] (.app (.var «hashtable-ref») [(.var «$record-generics»),
  (.var «rtd»), (.quote .null)]), .mk [«maybe-entry»] (.app (.var «assoc») [(.var «generic»), (.var «rtd-generics»)])] [(.ite (.var «maybe-entry») (.app (.var
  «list-ref») [(.app (.var «cdr») [(.var «maybe-entry»)]), (.var «idx»)]) (.app (.var «error») [(.quote (.sym «generics-accessor»)), (.lit (.const 183)), (.app
  (.var «$generics-type-name») [(.var «generic»)]), (.var «rtd»)]))])])])]))

/-- define generic-instance? (boot.min:37-37) -/
def boot_37 : E := (.define [«generic-instance?»] (.lam ⟨[«generic»], none⟩ [(.ite (.app (.var «$generics-type?») [(.var «generic»)]) (.app (.var «void») [])
  (.letv [] [(.app (.var «non-generics-type-error») [(.quote (.sym «generic-instance?»)), (.var «generic»)])])), (.lam ⟨[«rtd»], none⟩ [(.ite (.app (.var
  «record-type-descriptor?») [(.var «rtd»)]) (.letv [.mk [«generics»] (.app (.var «hashtable-ref») [(.var «$record-generics»), (.var «rtd»), (.lit .fls)])]
  [(.ite (.var «generics») (.app (.var «assoc») [(.var «generic»), (.var «generics»)]) (.lit .fls))]) (.lit .fls))])]))

/-- define gen:equal+hash gen:equal+hash? (boot.min:38-38) -/
def boot_38 : E := (.define [«gen:equal+hash», «gen:equal+hash?»] (.letv [.mk [«:gen»] (.app (.var «$make-generics-type») [(.quote (.sym «equal+hash»)), (.quote
  (.cons (.cons (.sym «equal-proc») (.cons (.sym «a») (.cons (.sym «b») (.cons (.sym «rec-equal?») .null)))) (.cons (.cons (.sym «hash-proc») (.cons (.sym «a»)
  (.cons (.sym «rec-hash») .null))) .null)))])] [(.app (.var .values) [(.var «:gen»), (.app (.var «generic-instance?») [(.var «:gen»)])])]))

/-- define gen:custom-write gen:custom-write? (boot.min:39-39) -/
def boot_39 : E := (.define [«gen:custom-write», «gen:custom-write?»] (.letv [.mk [«:gen»] (.app (.var «$make-generics-type») [(.quote (.sym «custom-write»)),
  (.quote (.cons (.cons (.sym «write-proc») (.cons (.sym «v») (.cons (.sym «port») (.cons (.sym «mode») .null)))) .null))])] [(.app (.var .values) [(.var
  «:gen»), (.app (.var «generic-instance?») [(.var «:gen»)])])]))

/-- define set (boot.min:40-40) -/
def boot_40 : E := (.define [«set»] (.letv [.mk [«p»] (.lit .fls)] [(.ite (.ite (.var «p») (.app (.var «record-type-sealed?») [(.var «p»)]) (.lit .fls)) (.app
  (.var «raise-argument-error») [(.quote (.sym «define-record-type»)), (.lit (.const 184)), (.var «p»)]) (.app (.var «make-record-type-descriptor») [(.quote
  (.sym «set»)), (.var «p»), (.lit .fls), (.lit .tru), (.lit .tru), (.quote (.lit (.const 185)))]))]))

/-- define make-set (boot.min:41-41) -/
def boot_41 : E := (.define [«make-set»] (.letv [.mk [«c»] (.app (.var «record-constructor») [(.var «set»)]), .mk [«p»] (.lam ⟨[«p»], none⟩ [(.lam ⟨[], some
  «xs»⟩ [(.letrecv [.mk [«h»] (.app (.var «make-hashtable») []), .mk [] (.letv [] [(.app (.var «for-each») [(.lam ⟨[«x»], none⟩ [(.app (.var «hashtable-set!»)
  [(.var «h»), (.var «x»), (.lit .fls)])]), (.var «xs»)]), (.app (.var .values) [])])] [(.app (.var «p») [(.var «h»)])])])])] [(.ite (.var «p») (.app (.var «p»)
  [(.var «c»)]) (.var «c»))]))

/-- define set? (boot.min:42-42) -/
def boot_42 : E := (.define [«set?»] (.app (.var «record-predicate») [(.var «set»)]))

/-- define set-store (boot.min:43-43) -/
def boot_43 : E := (.define [«set-store»] (.app (.var «record-accessor») [(.var «set»), (.lit (.const 19))]))

/-- define not-set-error (boot.min:44-44) -/
def boot_44 : E := (.define [«not-set-error»] (.lam ⟨[«who», «v»], none⟩ [(.app (.var «raise-argument-error») [(.var «who»), (.lit (.const 186)), (.var
  «v»)])]))

/-- define set-member? (boot.min:45-45) -/
def boot_45 : E := (.define [«set-member?»] (.lam ⟨[«st», «v»], none⟩ [(.ite (.app (.var «set?») [(.var «st»)]) (.app (.var «void») []) (.letv [] [(.app (.var
  «not-set-error») [(.quote (.sym «set-member?»)), (.var «st»)])])), (.app (.var «hashtable-contains?») [(.app (.var «set-store») [(.var «st»)]), (.var
  «v»)])]))

/-- define set-empty? (boot.min:46-46) -/
def boot_46 : E := (.define [«set-empty?»] (.lam ⟨[«st»], none⟩ [(.ite (.app (.var «set?») [(.var «st»)]) (.app (.var «void») []) (.letv [] [(.app (.var
  «not-set-error») [(.quote (.sym «set-empty?»)), (.var «st»)])])), (.app (.var «=») [(.app (.var «hashtable-size») [(.app (.var «set-store») [(.var «st»)])]),
  (.lit (.const 19))])]))

/-- define set-count (boot.min:47-47) -/
def boot_47 : E := (.define [«set-count»] (.lam ⟨[«st»], none⟩ [(.ite (.app (.var «set?») [(.var «st»)]) (.app (.var «void») []) (.letv [] [(.app (.var
  «not-set-error») [(.quote (.sym «set-count»)), (.var «st»)])])), (.app (.var «hashtable-size») [(.app (.var «set-store») [(.var «st»)])])]))

/-- define set-copy (boot.min:48-48) -/
def boot_48 : E := (.define [«set-copy»] (.lam ⟨[«st»], none⟩ [(.ite (.app (.var «set?») [(.var «st»)]) (.app (.var «void») []) (.letv [] [(.app (.var
  «not-set-error») [(.quote (.sym «set-copy»)), (.var «st»)])])), (.letrecv [.mk [«cp»] (.app (.var «make-set») []), .mk [] (.letv [] [(.app (.var «for-each»)
  [(.lam ⟨[«x»], none⟩ [(.app (.var «set-add!») [(.var «cp»), (.var «x»)])]), (.app (.var «set->list») [(.var «st»)])]), (.app (.var .values) [])])] [(.var
  «cp»)])]))

/-- define set-add! (boot.min:49-49) -/
def boot_49 : E := (.define [«set-add!»] (.lam ⟨[«st», «v»], none⟩ [(.ite (.app (.var «set?») [(.var «st»)]) (.app (.var «void») []) (.letv [] [(.app (.var
  «not-set-error») [(.quote (.sym «set-add!»)), (.var «st»)])])), (.app (.var «hashtable-set!») [(.app (.var «set-store») [(.var «st»)]), (.var «v»), (.lit
  .fls)])]))

/-- define set-remove! (boot.min:50-50) -/
def boot_50 : E := (.define [«set-remove!»] (.lam ⟨[«st», «v»], none⟩ [(.ite (.app (.var «set?») [(.var «st»)]) (.app (.var «void») []) (.letv [] [(.app (.var
  «not-set-error») [(.quote (.sym «set-remove!»)), (.var «st»)])])), (.app (.var «hashtable-delete!») [(.app (.var «set-store») [(.var «st»)]), (.var «v»)])]))

/-- define set-clear! (boot.min:51-51) -/
def boot_51 : E := (.define [«set-clear!»] (.lam ⟨[«st»], none⟩ [(.ite (.app (.var «set?») [(.var «st»)]) (.app (.var «void») []) (.letv [] [(.app (.var
  «not-set-error») [(.quote (.sym «set-clear!»)), (.var «st»)])])), (.app (.var «hashtable-clear!») [(.app (.var «set-store») [(.var «st»)])])]))

/-- define set->list (boot.min:52-52) -/
def boot_52 : E := (.define [«set->list»] (.lam ⟨[«st»], none⟩ [(.ite (.app (.var «set?») [(.var «st»)]) (.app (.var «void») []) (.letv [] [(.app (.var
  «not-set-error») [(.quote (.sym «set->list»)), (.var «st»)])])), (.app (.var «vector->list») [(.app (.var «hashtable-keys») [(.app (.var «set-store») [(.var
  «st»)])])])]))

/-- define subset? (boot.min:53-53) -/
def boot_53 : E := (.define [«subset?»] (.lam ⟨[«st», «st2»], none⟩ [(.ite (.app (.var «set?») [(.var «st»)]) (.app (.var «void») []) (.letv [] [(.app (.var
  «not-set-error») [(.quote (.sym «subset?»)), (.var «st»)])])), (.ite (.app (.var «set?») [(.var «st2»)]) (.app (.var «void») []) (.letv [] [(.app (.var
  «not-set-error») [(.quote (.sym «subset?»)), (.var «st2»)])])), (.letrecv [.mk [«loop»] (.lam ⟨[«elts»], none⟩ [(.ite (.app (.var «null?») [(.var «elts»)])
  (.lit .tru) (.ite (.app (.var «set-member?») [(.var «st2»), (.app (.var «car») [(.var «elts»)])]) (.app (.var «loop») [(.app (.var «cdr») [(.var «elts»)])])
  (.lit .fls)))])] [(.app (.var «loop») [(.app (.var «set->list») [(.var «st»)])])])]))

/-- define proper-subset? (boot.min:54-54) -/
def boot_54 : E := (.define [«proper-subset?»] (.lam ⟨[«st», «st2»], none⟩ [(.ite (.app (.var «set?») [(.var «st»)]) (.app (.var «void») []) (.letv [] [(.app
  (.var «not-set-error») [(.quote (.sym «proper-subset?»)), (.var «st»)])])), (.ite (.app (.var «set?») [(.var «st2»)]) (.app (.var «void») []) (.letv [] [(.app
  (.var «not-set-error») [(.quote (.sym «proper-subset?»)), (.var «st2»)])])), (.ite (.app (.var «subset?») [(.var «st»), (.var «st2»)]) (.app (.var «not»)
  [(.app (.var «subset?») [(.var «st2»), (.var «st»)])]) (.lit .fls))]))

/-- define set=? (boot.min:55-55) -/
def boot_55 : E := (.define [«set=?»] (.lam ⟨[«st», «st2»], none⟩ [(.ite (.app (.var «set?») [(.var «st»)]) (.app (.var «void») []) (.letv [] [(.app (.var
  «not-set-error») [(.quote (.sym «set=?»)), (.var «st»)])])), (.ite (.app (.var «set?») [(.var «st2»)]) (.app (.var «void») []) (.letv [] [(.app (.var
  «not-set-error») [(.quote (.sym «set=?»)), (.var «st2»)])])), (.ite (.app (.var «subset?») [(.var «st»), (.var «st2»)]) (.app (.var «subset?») [(.var «st2»),
  (.var «st»)]) (.lit .fls))]))

/-- define set-map (boot.min:56-56) -/
def boot_56 : E := (.define [«set-map»] (.lam ⟨[«proc», «st»], none⟩ [(.ite (.app (.var «set?») [(.var «st»)]) (.app (.var «void») []) (.letv [] [(.app (.var
  «not-set-error») [(.quote (.sym «set-map»)), (.var «st»)])])), (.app (.var «map») [(.var «proc»), (.app (.var «set->list») [(.var «st»)])])]))

/-- define set-for-each (boot.min:57-57) -/
def boot_57 : E := (.define [«set-for-each»] (.lam ⟨[«proc», «st»], none⟩ [(.ite (.app (.var «set?») [(.var «st»)]) (.app (.var «void») []) (.letv [] [(.app
  (.var «not-set-error») [(.quote (.sym «set-for-each»)), (.var «st»)])])), (.app (.var «for-each») [(.var «proc»), (.app (.var «set->list») [(.var «st»)])])]))

/-- define set-union (boot.min:58-58) -/
def boot_58 : E := (.define [«set-union»] (.lam ⟨[], some «ss»⟩ [(.app (.var «for-each») [(.lam ⟨[«s»], none⟩ [(.ite (.app (.var «set?») [(.var «s»)]) (.app
  (.var «void») []) (.letv [] [(.app (.var «not-set-error») [(.quote (.sym «set-union»)), (.var «s»)])]))]), (.var «ss»)]), (.ite (.app (.var «null?») [(.var
  «ss»)]) (.app (.var «make-set») []) (.ite (.app (.var «null?») [(.app (.var «cdr») [(.var «ss»)])]) (.letv [] [(.letrecv [.mk [«s»] (.app (.var «car») [(.var
  «ss»)]), .mk [«c»] (.app (.var «make-set») []), .mk [] (.letv [] [(.app (.var «for-each») [(.lam ⟨[«x»], none⟩ [(.app (.var «set-add!») [(.var «c»), (.var
  «x»)])]), (.app (.var «set->list») [(.var «s»)])]), (.app (.var .values) [])])] [(.var «c»)])]) (.letv [] [(.letrecv [.mk [«u»] (.app (.var «make-set») []),
  .mk [] (.letv [] [(.app (.var «for-each») [(.lam ⟨[«s»], none⟩ [(.app (.var «for-each») [(.lam ⟨[«x»], none⟩ [(.app (.var «set-add!») [(.var «u»), (.var
  «x»)])]), (.app (.var «set->list») [(.var «s»)])])]), (.var «ss»)]), (.app (.var .values) [])])] [(.var «u»)])])))]))

/-- define set-intersect (boot.min:59-59) -/
def boot_59 : E := (.define [«set-intersect»] (.lam ⟨[], some «ss»⟩ [(.app (.var «for-each») [(.lam ⟨[«s»], none⟩ [(.ite (.app (.var «set?») [(.var «s»)]) (.app
  (.var «void») []) (.letv [] [(.app (.var «not-set-error») [(.quote (.sym «set-intersect»)), (.var «s»)])]))]), (.var «ss»)]), (.ite (.app (.var «null?»)
  [(.var «ss»)]) (.app (.var «make-set») []) (.ite (.app (.var «null?») [(.app (.var «cdr») [(.var «ss»)])]) (.letv [] [(.letrecv [.mk [«s»] (.app (.var «car»)
  [(.var «ss»)]), .mk [«c»] (.app (.var «make-set») []), .mk [] (.letv [] [(.app (.var «for-each») [(.lam ⟨[«x»], none⟩ [(.app (.var «set-add!») [(.var «c»),
  (.var «x»)])]), (.app (.var «set->list») [(.var «s»)])]), (.app (.var .values) [])])] [(.var «c»)])]) (.letv [] [(.letrecv [.mk [«s»] (.app (.var «car»)
  [(.var «ss»)]), .mk [«i»] (.app (.var «make-set») []), .mk [] (.letv [] [(.app (.var «for-each») [(.lam ⟨[«x»], none⟩ [(.app (.var «set-add!») [(.var «i»),
  (.var «x»)])]), (.app (.var «set->list») [(.var «s»)])]), (.app (.var .values) [])])] [(.letrecv [.mk [«loop»] (.lam ⟨[«ss», «i»], none⟩ [(.ite (.app (.var
  «null?») [(.var «ss»)]) (.var «i») (.ite (.app (.var «=») [(.app (.var «set-count») [(.var «i»)]), (.lit (.const 19))]) (.var «i») (.letv [] [(.letrecv [.mk
  [«s»] (.app (.var «car») [(.var «ss»)]), .mk [«i*»] (.app (.var «make-set») []), .mk [] (.letv [] [(.app (.var «for-each») [(.lam ⟨[«x»], none⟩ [(.ite (.app
  (.var «set-member?») [(.var «s»), (.var «x»)]) (.letv [] [(.app (.var «set-add!») [(.var «i*»), (.var «x»)])]) (.app (.var «void») []))]), (.app (.var
  «set->list») [(.var «i»)])]), (.app (.var .values) [])])] [(.app (.var «loop») [(.app (.var «cdr») [(.var «ss»)]), (.var «i*»)])])])))])] [(.app (.var «loop»)
  [(.app (.var «cdr») [(.var «ss»)]), (.var «i»)])])])])))]))

/-- define set-subtract (boot.min:60-60) -/
def boot_60 : E := (.define [«set-subtract»] (.lam ⟨[«st0»], some «sts»⟩ [(.app (.var «for-each») [(.lam ⟨[«s»], none⟩ [(.ite (.app (.var «set?») [(.var «s»)])
  (.app (.var «void») []) (.letv [] [(.app (.var «not-set-error») [(.quote (.sym «set-subtract»)), (.var «s»)])]))]), (.app (.var «cons») [(.var «st0»), (.var
  «sts»)])]), (.letrecv [.mk [«diff»] (.app (.var «set-copy») [(.var «st0»)])] [(.letrecv [.mk [«loop»] (.lam ⟨[«sts»], none⟩ [(.ite (.app (.var «null?») [(.var
  «sts»)]) (.var «diff») (.letv [] [(.letrecv [.mk [«st»] (.app (.var «car») [(.var «sts»)]), .mk [] (.letv [] [(.app (.var «set-for-each») [(.lam ⟨[«x»], none⟩
  [(.ite (.app (.var «set-member?») [(.var «st»), (.var «x»)]) (.letv [] [(.app (.var «set-remove!») [(.var «diff»), (.var «x»)])]) (.app (.var «void») []))]),
  (.var «diff»)]), (.app (.var .values) [])])] [(.app (.var «loop») [(.app (.var «cdr») [(.var «sts»)])])])]))])] [(.app (.var «loop») [(.var «sts»)])])])]))

/-- define set-symmetric-difference (boot.min:61-61) -/
def boot_61 : E := (.define [«set-symmetric-difference»] (.lam ⟨[«st0»], some «sts»⟩ [(.app (.var «for-each») [(.lam ⟨[«s»], none⟩ [(.ite (.app (.var «set?»)
  [(.var «s»)]) (.app (.var «void») []) (.letv [] [(.app (.var «not-set-error») [(.quote (.sym «set-symmetric-difference»)), (.var «s»)])]))]), (.app (.var
  «cons») [(.var «st0»), (.var «sts»)])]), (.letrecv [.mk [«diff»] (.app (.var «set-copy») [(.var «st0»)])] [(.letrecv [.mk [«loop»] (.lam ⟨[«sts»], none⟩
  [(.ite (.app (.var «null?») [(.var «sts»)]) (.var «diff») (.letv [] [(.letrecv [.mk [«st»] (.app (.var «car») [(.var «sts»)]), .mk [] (.letv [] [(.app (.var
  «set-for-each») [(.lam ⟨[«x»], none⟩ [(.ite (.app (.var «set-member?») [(.var «diff»), (.var «x»)]) (.app (.var «set-remove!») [(.var «diff»), (.var «x»)])
  (.app (.var «set-add!») [(.var «diff»), (.var «x»)]))]), (.var «st»)]), (.app (.var .values) [])])] [(.app (.var «loop») [(.app (.var «cdr») [(.var
  «sts»)])])])]))])] [(.app (.var «loop») [(.var «sts»)])])])]))

/-- define substring (boot.min:62-62) -/
def boot_62 : E := (.define [«substring»] (.lam ⟨[«str», «start», «end»], none⟩ [(.letrecv [.mk [«len»] (.app (.var «string-length») [(.var «str»)]), .mk []
  (.letv [] [(.ite (.app (.var «string?») [(.var «str»)]) (.app (.var «void») []) (.letv [] [(.app (.var «raise-argument-error») [(.quote (.sym «substring»)),
  (.lit (.const 28)), (.var «str»)])])), (.app (.var .values) [])]), .mk [] (.letv [] [(.ite (.app (.var «non-negative-integer?») [(.var «start»)]) (.app (.var
  «void») []) (.letv [] [(.app (.var «raise-argument-error») [(.quote (.sym «substring»)), (.lit (.const 26)), (.var «start»)])])), (.app (.var .values) [])]),
  .mk [] (.letv [] [(.ite (.app (.var «non-negative-integer?») [(.var «end»)]) (.app (.var «void») []) (.letv [] [(.app (.var «raise-argument-error») [(.quote
  (.sym «substring»)), (.lit (.const 26)), (.var «end»)])])), (.app (.var .values) [])]), .mk [] (.letv [] [(.ite (.app (.var «<=») [(.var «end»), (.var
  «len»)]) (.app (.var «void») []) (.letv [] [(.app (.var «raise-range-error») [(.quote (.sym «substring»)), (.var «str»), (.lit (.const 61)), (.lit (.const
  19)), (.app (.var «+») [(.var «len»), (.lit (.const 21))]), (.var «end»)])])), (.app (.var .values) [])]), .mk [] (.letv [] [(.ite (.app (.var «<=») [(.var
  «start»), (.var «end»)]) (.app (.var «void») []) (.letv [] [(.app (.var «raise-range-error») [(.quote (.sym «substring»)), (.var «str»), (.lit (.const 62)),
  (.lit (.const 19)), (.var «end»)])])), (.app (.var .values) [])]), .mk [«sstr»] (.app (.var «make-string») [(.app (.var «-») [(.var «end»), (.var
  «start»)])])] [(.letrecv [.mk [«loop»] (.lam ⟨[«i», «n»], none⟩ [(.ite (.app (.var «=») [(.var «n»), (.var «end»)]) (.var «sstr») (.letv [] [(.app (.var
  «string-set!») [(.var «sstr»), (.var «i»), (.app (.var «string-ref») [(.var «str»), (.var «n»)])]), (.app (.var «loop») [(.app (.var «+») [(.var «i»), (.lit
  (.const 21))]), (.app (.var «+») [(.var «n»), (.lit (.const 21))])])]))])] [(.app (.var «loop») [(.lit (.const 19)), (.var «start»)])])])]))

/-- define identifier? (boot.min:63-63) -/
def boot_63 : E := (.define [«identifier?»] (.lam ⟨[«t»], none⟩ [(.ite (.app (.var «syntax?») [(.var «t»)]) (.app (.var «symbol?») [(.app (.var «syntax-e»)
  [(.var «t»)])]) (.lit .fls))]))

/-- define free-identifier=? (boot.min:64-64) -/
def boot_64 : E := (.define [«free-identifier=?»] (.lam ⟨[«a», «b»], none⟩ [(.ite (.app (.var «not») [(.app (.var «identifier?») [(.var «a»)])]) (.app (.var
  «raise-argument-error») [(.quote (.sym «free-identifier=?»)), (.lit (.const 187)), (.var «a»)]) (.ite (.app (.var «not») [(.app (.var «identifier?») [(.var
  «b»)])]) (.app (.var «raise-argument-error») [(.quote (.sym «free-identifier=?»)), (.lit (.const 187)), (.var «b»)]) (.app (.var «eq?») [(.app (.var
  «syntax-e») [(.var «a»)]), (.app (.var «syntax-e») [(.var «b»)])])))]))

/-- define stx-null? (boot.min:65-65) -/
def boot_65 : E := (.define [«stx-null?»] (.lam ⟨[«t»], none⟩ [(.ite (.app (.var «null?») [(.var «t»)]) (.lit .tru) (.ite (.app (.var «syntax?») [(.var «t»)])
  (.app (.var «null?») [(.app (.var «syntax-e») [(.var «t»)])]) (.lit .fls)))]))

/-- define stx-pair? (boot.min:66-66) -/
def boot_66 : E := (.define [«stx-pair?»] (.lam ⟨[«t»], none⟩ [(.ite (.app (.var «pair?») [(.var «t»)]) (.lit .tru) (.ite (.app (.var «syntax?») [(.var «t»)])
  (.app (.var «pair?») [(.app (.var «syntax-e») [(.var «t»)])]) (.lit .fls)))]))

/-- define stx-list? (boot.min:67-67) -/
def boot_67 : E := (.define [«stx-list?»] (.lam ⟨[«t»], none⟩ [(.ite (.app (.var «list?») [(.var «t»)]) (.lit .tru) (.ite (.app (.var «syntax?») [(.var «t»)])
  (.app (.var «list?») [(.app (.var «syntax-e») [(.var «t»)])]) (.lit .fls)))]))

/-- define stx-vector? (boot.min:68-68) -/
def boot_68 : E := (.define [«stx-vector?»] (.lam ⟨[«t»], none⟩ [(.ite (.app (.var «vector?») [(.var «t»)]) (.lit .tru) (.ite (.app (.var «syntax?») [(.var
  «t»)]) (.app (.var «vector?») [(.app (.var «syntax-e») [(.var «t»)])]) (.lit .fls)))]))

/-- define stx-car (boot.min:69-69) -/
def boot_69 : E := (.define [«stx-car»] (.lam ⟨[«t»], none⟩ [(.ite (.app (.var «pair?») [(.var «t»)]) (.app (.var «car») [(.var «t»)]) (.app (.var «car») [(.app
  (.var «syntax-e») [(.var «t»)])]))]))

/-- define stx-cdr (boot.min:70-70) -/
def boot_70 : E := (.define [«stx-cdr»] (.lam ⟨[«t»], none⟩ [(.ite (.app (.var «pair?») [(.var «t»)]) (.app (.var «cdr») [(.var «t»)]) (.app (.var «cdr») [(.app
  (.var «syntax-e») [(.var «t»)])]))]))

/-- define stx-vector-ref (boot.min:71-71) -/
def boot_71 : E := (.define [«stx-vector-ref»] (.lam ⟨[«s», «i»], none⟩ [(.app (.var «vector-ref») [(.app (.var «syntax-e») [(.var «s»)]), (.var «i»)])]))

/-- define stx-null/#f (boot.min:72-72) -/
def boot_72 : E := (.define [«stx-null/#f»] (.lam ⟨[«t»], none⟩ [(.ite (.app (.var «null?») [(.var «t»)]) (.var «null») (.ite (.app (.var «syntax?») [(.var
  «t»)]) (.ite (.app (.var «null?») [(.app (.var «syntax-e») [(.var «t»)])]) (.var «null») (.lit .fls)) (.lit .fls)))]))

/-- define cons/#f (boot.min:73-73) -/
def boot_73 : E := (.define [«cons/#f»] (.lam ⟨[«x1», «x2»], none⟩ [(.ite (.var «x2») (.app (.var «cons») [(.var «x1»), (.var «x2»)]) (.lit .fls))]))

/-- define append/#f (boot.min:74-74) -/
def boot_74 : E := (.define [«append/#f»] (.lam ⟨[«l1», «l2»], none⟩ [(.ite (.var «l1») (.ite (.var «l2») (.ite (.app (.var «null?») [(.var «l2»)]) (.var «l1»)
  (.app (.var «append») [(.var «l1»), (.var «l2»)])) (.lit .fls)) (.lit .fls))]))

/-- define map/#f (boot.min:75-75) -/
def boot_75 : E := (.define [«map/#f»] (.lam ⟨[«fn», «x»], some «xs»⟩ [(.letv [.mk [«lsts»] (.app (.var «cons») [(.var «x»), (.var «xs»)])] [(.ite (.app (.var
  «andmap») [(.lam ⟨[«x»], none⟩ [(.var «x»)]), (.var «lsts»)]) (.app (.var «apply») [(.var «map»), (.var «fn»), (.var «lsts»)]) (.lit .fls))])]))

/-- define stx->list (boot.min:76-76) -/
def boot_76 : E := (.define [«stx->list»] (.lam ⟨[«t»], none⟩ [(.ite (.app (.var «syntax?») [(.var «t»)]) (.ite (.app (.var «stx-list?») [(.var «t»)]) (.app
  (.var «syntax-e») [(.var «t»)]) (.lit .fls)) (.ite (.app (.var «list?») [(.var «t»)]) (.ite (.app (.var «andmap») [(.lam ⟨[«x»], none⟩ [(.app (.var «syntax?»)
  [(.var «x»)])]), (.var «t»)]) (.var «t») (.lit .fls)) (.lit .fls)))]))

/-- define split-stx-list (boot.min:77-77) -/
def boot_77 : E := (.define [«split-stx-list»] (.lam ⟨[«s», «n», «prop?»], none⟩ [(.letv [.mk [«pre», «post», «m»] (.letrecv [.mk [«loop»] (.lam ⟨[«s»], none⟩
  [(.ite (.app (.var «stx-pair?») [(.var «s»)]) (.letv [.mk [«pre», «post», «m»] (.app (.var «loop») [(.app (.var «stx-cdr») [(.var «s»)])])] [(.ite (.app (.var
  «<») [(.var «m»), (.var «n»)]) (.app (.var .values) [(.var «null»), (.var «s»), (.app (.var «+») [(.var «m»), (.lit (.const 21))])]) (.app (.var .values)
  [(.app (.var «cons») [(.app (.var «stx-car») [(.var «s»)]), (.var «pre»)]), (.var «post»), (.var «m»)]))]) (.app (.var .values) [(.var «null»), (.var «s»),
  (.ite (.var «prop?») (.ite (.app (.var «stx-null?») [(.var «s»)]) (.lit (.const 19)) (.lit (.const 188))) (.lit (.const 21)))]))])] [(.app (.var «loop»)
  [(.var «s»)])])] [(.app (.var .values) [(.var «pre»), (.var «post»), (.app (.var «=») [(.var «m»), (.var «n»)])])])]))

/-- define scope (boot.min:78-78) -/
def boot_78 : E := (.define [«scope»] (.letv [.mk [«p»] (.lit .fls)] [(.ite (.ite (.var «p») (.app (.var «record-type-sealed?») [(.var «p»)]) (.lit .fls)) (.app
  (.var «raise-argument-error») [(.quote (.sym «define-record-type»)), (.lit (.const 184)), (.var «p»)]) (.app (.var «make-record-type-descriptor») [(.quote
  (.sym «scope»)), (.var «p»), (.lit .fls), (.lit .fls), (.lit .fls), (.quote (.lit (.const 189)))]))]))

/-- define make-scope (boot.min:79-79) -/
def boot_79 : E := (.define [«make-scope»] (.letv [.mk [«c»] (.app (.var «record-constructor») [(.var «scope»)]), .mk [«p»] (.lit .fls)] [(.ite (.var «p») (.app
  (.var «p») [(.var «c»)]) (.var «c»))]))

/-- define scope? (boot.min:80-80) -/
def boot_80 : E := (.define [«scope?»] (.app (.var «record-predicate») [(.var «scope»)]))

/-- define scope-bound (boot.min:81-81) -/
def boot_81 : E := (.define [«scope-bound»] (.app (.var «record-accessor») [(.var «scope»), (.lit (.const 19))]))

/-- define scope-prev (boot.min:82-82) -/
def boot_82 : E := (.define [«scope-prev»] (.app (.var «record-accessor») [(.var «scope»), (.lit (.const 21))]))

/-- define scope-bound-set! (boot.min:83-83) -/
def boot_83 : E := (.define [«scope-bound-set!»] (.app (.var «record-mutator») [(.var «scope»), (.lit (.const 19))]))

/-- define scope-prev-set! (boot.min:84-84) -/
def boot_84 : E := (.define [«scope-prev-set!»] (.app (.var «record-mutator») [(.var «scope»), (.lit (.const 21))]))

/-- define make-base-scope (boot.min:85-85) -/
def boot_85 : E := (.define [«make-base-scope»] (.lam ⟨[], none⟩ [(.letrecv [.mk [«bound»] (.app (.var «make-set») []), .mk [] (.letv [] [(.app (.var
  «for-each») [(.lam ⟨[«n»], none⟩ [(.app (.var «set-add!») [(.var «bound»), (.var «n»)])]), (.app (.var «environment-symbols») [(.var «$base-env»)])]), (.app
  (.var .values) [])])] [(.app (.var «make-scope») [(.var «bound»), (.lit .fls)])])]))

/-- define scope-extend (boot.min:86-86) -/
def boot_86 : E := (.define [«scope-extend»] (.lam ⟨[«prev»], none⟩ [(.app (.var «make-scope») [(.app (.var «make-set») []), (.var «prev»)])]))

/-- define scope-add! (boot.min:87-87) -/
def boot_87 : E := (.define [«scope-add!»] (.lam ⟨[«scope», «name»], none⟩ [(.app (.var «set-add!») [(.app (.var «scope-bound») [(.var «scope»)]), (.var
  «name»)])]))

/-- define scope-names (boot.min:88-88) -/
def boot_88 : E := (.define [«scope-names»] (.lam ⟨[«scope»], none⟩ [(.letrecv [.mk [«names»] (.app (.var «make-set») []), .mk [] (.letv [] [(.letrecv [.mk
  [«loop»] (.lam ⟨[«scope»], none⟩ [(.ite (.var «scope») (.letv [] [(.app (.var «for-each») [(.lam ⟨[«n»], none⟩ [(.app (.var «set-add!») [(.var «names»), (.var
  «n»)])]), (.app (.var «set->list») [(.app (.var «scope-bound») [(.var «scope»)])])]), (.app (.var «loop») [(.app (.var «scope-prev») [(.var «scope»)])])])
  (.app (.var «void») []))])] [(.app (.var «loop») [(.var «scope»)])]), (.app (.var .values) [])])] [(.var «names»)])]))

/-- define scope-contains? (boot.min:89-89) -/
def boot_89 : E := (.define [«scope-contains?»] (.lam ⟨[«scope», «name»], none⟩ [(.letrecv [.mk [«loop»] (.lam ⟨[«scope»], none⟩ [(.ite (.app (.var «not»)
  [(.var «scope»)]) (.lit .fls) (.ite (.app (.var «set-member?») [(.app (.var «scope-bound») [(.var «scope»)]), (.var «name»)]) (.lit .tru) (.app (.var «loop»)
  [(.app (.var «scope-prev») [(.var «scope»)])])))])] [(.app (.var «loop») [(.var «scope»)])])]))

/-- define $base-env (boot.min:90-90) -/
def boot_90 : E := (.define [«$base-env»] (.app (.var «make-base-environment») []))

/-- define $base-scope (boot.min:91-91) -/
def boot_91 : E := (.define [«$base-scope»] (.app (.var «make-base-scope») []))

/-- define lookup-xform (boot.min:92-92) -/
def boot_92 : E := (.define [«lookup-xform»] (.lam ⟨[«maybe-id», «xforms»], none⟩ [(.ite (.app (.var «identifier?») [(.var «maybe-id»)]) (.letv [.mk [«entry»]
  (.app (.var «assoc») [(.app (.var «syntax-e») [(.var «maybe-id»)]), (.var «xforms»)])] [(.ite (.var «entry») (.app (.var «cdr») [(.var «entry»)]) (.lit
  .fls))]) (.lit .fls))]))

/-- define merge-xforms (boot.min:93-93) -/
def boot_93 : E := (.define [«merge-xforms»] (.lam ⟨[«xforms», «new-xforms»], none⟩ [(.letrecv [.mk [«loop»] (.lam ⟨[«xforms», «new-xforms»], none⟩ [(.ite (.app
  (.var «null?») [(.var «new-xforms»)]) (.var «xforms») (.ite (.app (.var «assoc») [(.app (.var «caar») [(.var «new-xforms»)]), (.var «xforms»)]) (.app (.var
  «loop») [(.var «xforms»), (.app (.var «cdr») [(.var «new-xforms»)])]) (.app (.var «loop») [(.app (.var «cons») [(.app (.var «car») [(.var «new-xforms»)]),
  (.var «xforms»)]), (.app (.var «cdr») [(.var «new-xforms»)])])))])] [(.app (.var «loop») [(.var «xforms»), (.var «new-xforms»)])])]))

/-- define _-form? (boot.min:94-94) -/
def boot_94 : E := (.define [«_-form?»] (.lam ⟨[«form-name»], none⟩ [(.lam ⟨[«expr»], none⟩ [(.ite (.app (.var «stx-pair?») [(.var «expr»)]) (.letv [.mk
  [«head»] (.app (.var «stx-car») [(.var «expr»)])] [(.ite (.app (.var «identifier?») [(.var «head»)]) (.app (.var «eq?») [(.app (.var «syntax-e») [(.var
  «head»)]), (.var «form-name»)]) (.lit .fls))]) (.lit .fls))])]))

/-- define define-values-form? (boot.min:95-95) -/
def boot_95 : E := (.define [«define-values-form?»] (.app (.var «_-form?») [(.quote (.sym .defineValues))]))

/-- define define-syntaxes-form? (boot.min:96-96) -/
def boot_96 : E := (.define [«define-syntaxes-form?»] (.app (.var «_-form?») [(.quote (.sym «define-syntaxes»))]))

/-- define let-values-form? (boot.min:97-97) -/
def boot_97 : E := (.define [«let-values-form?»] (.app (.var «_-form?») [(.quote (.sym .letValues))]))

/-- define letrec-values-form? (boot.min:98-98) -/
def boot_98 : E := (.define [«letrec-values-form?»] (.app (.var «_-form?») [(.quote (.sym .letrecValues))]))

/-- define let-syntaxes-form? (boot.min:99-99) -/
def boot_99 : E := (.define [«let-syntaxes-form?»] (.app (.var «_-form?») [(.quote (.sym «let-syntaxes»))]))

/-- define set!-form? (boot.min:100-100) -/
def boot_100 : E := (.define [«set!-form?»] (.app (.var «_-form?») [(.quote (.sym .setb))]))

/-- define quote-form? (boot.min:101-101) -/
def boot_101 : E := (.define [«quote-form?»] (.app (.var «_-form?») [(.quote (.sym .quote))]))

/-- define quote-syntax-form? (boot.min:102-102) -/
def boot_102 : E := (.define [«quote-syntax-form?»] (.app (.var «_-form?») [(.quote (.sym .quoteSyntax))]))

/-- define lambda-form? (boot.min:103-103) -/
def boot_103 : E := (.define [«lambda-form?»] (.app (.var «_-form?») [(.quote (.sym .lambda))]))

/-- define case-lambda-form? (boot.min:104-104) -/
def boot_104 : E := (.define [«case-lambda-form?»] (.app (.var «_-form?») [(.quote (.sym .caseLambda))]))

/-- define begin-form? (boot.min:105-105) -/
def boot_105 : E := (.define [«begin-form?»] (.app (.var «_-form?») [(.quote (.sym .begin))]))

/-- define if-form? (boot.min:106-106) -/
def boot_106 : E := (.define [«if-form?»] (.app (.var «_-form?») [(.quote (.sym .ifS))]))

/-- define stx-self-evaluating? (boot.min:107-107) -/
def boot_107 : E := (.define [«stx-self-evaluating?»] (.lam ⟨[«stx»], none⟩ [(.letrecv [.mk [«datum»] (.app (.var «syntax-e») [(.var «stx»)])] [(.letv [.mk
  [«or-t»] (.app (.var «boolean?») [(.var «datum»)])] [(.ite (.var «or-t») (.var «or-t») (.letv [.mk [«or-t»] (.app (.var «number?») [(.var «datum»)])] [(.ite
  (.var «or-t») (.var «or-t») (.letv [.mk [«or-t»] (.app (.var «string?») [(.var «datum»)])] [(.ite (.var «or-t») (.var «or-t») (.letv [.mk [«or-t»] (.app (.var
  «vector?») [(.var «datum»)])] [(.ite (.var «or-t») (.var «or-t») (.letv [.mk [«or-t»] (.app (.var «box?») [(.var «datum»)])] [(.ite (.var «or-t») (.var
  «or-t») (.app (.var «char?») [(.var «datum»)]))]))]))]))]))])])]))

/-- define duplicate-identifier (boot.min:108-108) -/
def boot_108 : E := (.define [«duplicate-identifier»] (.lam ⟨[«ids», «new-ids»], none⟩ [(.letrecv [.mk [«new-unique»] (.app (.var «make-set») [])] [(.letrecv
  [.mk [«loop»] (.lam ⟨[«new-ids»], none⟩ [(.ite (.app (.var «null?») [(.var «new-ids»)]) (.lit .fls) (.ite (.app (.var «set-member?») [(.var «ids»), (.app
  (.var «car») [(.var «new-ids»)])]) (.app (.var «car») [(.var «new-ids»)]) (.ite (.app (.var «set-member?») [(.var «new-unique»), (.app (.var «car») [(.var
  «new-ids»)])]) (.app (.var «car») [(.var «new-ids»)]) (.letv [] [(.app (.var «set-add!») [(.var «new-unique»), (.app (.var «car») [(.var «new-ids»)])]), (.app
  (.var «loop») [(.app (.var «cdr») [(.var «new-ids»)])])]))))])] [(.app (.var «loop») [(.var «new-ids»)])])])]))

/-- define check-define-syntaxes/values-form! (boot.min:109-109) -/
def boot_109 : E := (.define [«check-define-syntaxes/values-form!»] (.lam ⟨[«name», «form»], none⟩ [(.letrecv [.mk [«rib0»] (.app (.var «stx-cdr») [(.var
  «form»)]), .mk [] (.letv [] [(.ite (.app (.var «stx-null?») [(.var «rib0»)]) (.letv [] [(.app (.var «raise-syntax-error») [(.var «name»), (.lit (.const 190)),
  (.var «form»)])]) (.app (.var «void») [])), (.app (.var .values) [])]), .mk [«ids»] (.app (.var «syntax->list») [(.app (.var «stx-car») [(.var «rib0»)])]),
  .mk [«rib1»] (.app (.var «stx-cdr») [(.var «rib0»)]), .mk [] (.letv [] [(.ite (.ite (.app (.var «list?») [(.var «ids»)]) (.app (.var «andmap») [(.var
  «identifier?»), (.var «ids»)]) (.lit .fls)) (.app (.var «void») []) (.letv [] [(.app (.var «raise-syntax-error») [(.var «name»), (.lit (.const 191)), (.var
  «form»), (.var «ids»)])])), (.app (.var .values) [])]), .mk [] (.letv [] [(.ite (.app (.var «stx-null?») [(.var «rib1»)]) (.letv [] [(.app (.var
  «raise-syntax-error») [(.var «name»), (.lit (.const 192)), (.var «form»)])]) (.app (.var «void») [])), (.app (.var .values) [])]), .mk [«rib2»] (.app (.var
  «stx-cdr») [(.var «rib1»)])] [(.ite (.app (.var «stx-null?») [(.var «rib2»)]) (.app (.var «void») []) (.letv [] [(.app (.var «raise-syntax-error») [(.var
  «name»), (.lit (.const 193)), (.var «form»)])]))])]))

/-- define check-let-syntaxes/values-form! (boot.min:110-110) -/
def boot_110 : E := (.define [«check-let-syntaxes/values-form!»] (.lam ⟨[«name», «form»], none⟩ [(.letrecv [.mk [«rib»] (.app (.var «stx-cdr») [(.var «form»)]),
  .mk [] (.letv [] [(.ite (.app (.var «stx-null?») [(.var «rib»)]) (.letv [] [(.app (.var «raise-syntax-error») [(.var «name»), (.lit (.const 190)), (.var
  «form»)])]) (.app (.var «void») [])), (.app (.var .values) [])]), .mk [«bindings»] (.app (.var «syntax->list») [(.app (.var «stx-car») [(.var «rib»)])]), .mk
  [«bind-rib»] (.app (.var «stx-cdr») [(.var «rib»)]), .mk [] (.letv [] [(.ite (.app (.var «null?») [(.var «bind-rib»)]) (.letv [] [(.app (.var
  «raise-syntax-error») [(.var «name»), (.lit (.const 194)), (.var «form»)])]) (.app (.var «void») [])), (.app (.var .values) [])]), .mk [] (.letv [] [(.ite
  (.letv [.mk [«or-t»] (.app (.var «list?») [(.var «bind-rib»)])] [(.ite (.var «or-t») (.var «or-t») (.ite (.app (.var «syntax?») [(.var «bind-rib»)]) (.app
  (.var «list?») [(.app (.var «syntax->list») [(.var «bind-rib»)])]) (.lit .fls)))]) (.app (.var «void») []) (.letv [] [(.app (.var «raise-syntax-error») [(.var
  «name»), (.lit (.const 195)), (.var «form»), (.var «bindings»)])])), (.app (.var .values) [])]), .mk [] (.letv [] [(.ite (.app (.var «list?») [(.var
  «bindings»)]) (.app (.var «void») []) (.letv [] [(.app (.var «raise-syntax-error») [(.var «name»), (.lit (.const 196)), (.var «form»)])])), (.app (.var
  .values) [])])] [(.letrecv [.mk [«loop»] (.lam ⟨[«bindings»], none⟩ [(.ite (.app (.var «null?») [(.var «bindings»)]) (.app (.var «void») []) (.letv []
  [(.letrecv [.mk [«bind»] (.app (.var «syntax->list») [(.app (.var «car») [(.var «bindings»)])]), .mk [] (.letv [] [(.ite (.ite (.app (.var «list?») [(.var
  «bind»)]) (.app (.var «=») [(.app (.var «length») [(.var «bind»)]), (.lit (.const 33))]) (.lit .fls)) (.app (.var «void») []) (.letv [] [(.app (.var
  «raise-syntax-error») [(.var «name»), (.lit (.const 196)), (.var «form»)])])), (.app (.var .values) [])]), .mk [«ids»] (.app (.var «syntax->list») [(.app
  (.var «car») [(.var «bind»)])]), .mk [] (.letv [] [(.ite (.ite (.app (.var «list?») [(.var «ids»)]) (.app (.var «andmap») [(.var «identifier?»), (.var
  «ids»)]) (.lit .fls)) (.app (.var «void») []) (.letv [] [(.app (.var «raise-syntax-error») [(.var «name»), (.lit (.const 191)), (.var «form»), (.var
  «ids»)])])), (.app (.var .values) [])])] [(.app (.var «loop») [(.app (.var «cdr») [(.var «bindings»)])])])]))])] [(.app (.var «loop») [(.var
  «bindings»)])])])]))

/-- define check-set!-form! (boot.min:111-111) -/
def boot_111 : E := (.define [«check-set!-form!»] (.lam ⟨[«form»], none⟩ [(.letrecv [.mk [«rib0»] (.app (.var «stx-cdr») [(.var «form»)]), .mk [] (.letv []
  [(.ite (.app (.var «stx-null?») [(.var «rib0»)]) (.letv [] [(.app (.var «raise-syntax-error») [(.quote (.sym .setb)), (.lit (.const 190)), (.var «form»)])])
  (.app (.var «void») [])), (.app (.var .values) [])]), .mk [«id»] (.app (.var «stx-car») [(.var «rib0»)]), .mk [«rib1»] (.app (.var «stx-cdr») [(.var
  «rib0»)]), .mk [] (.letv [] [(.ite (.app (.var «identifier?») [(.var «id»)]) (.app (.var «void») []) (.letv [] [(.app (.var «raise-syntax-error») [(.quote
  (.sym .setb)), (.lit (.const 197)), (.var «form»), (.var «id»)])])), (.app (.var .values) [])]), .mk [] (.letv [] [(.ite (.app (.var «stx-null?») [(.var
  «rib1»)]) (.letv [] [(.app (.var «raise-syntax-error») [(.quote (.sym .setb)), (.lit (.const 198)), (.var «form»)])]) (.app (.var «void») [])), (.app (.var
  .values) [])]), .mk [«rib2»] (.app (.var «stx-cdr») [(.var «rib1»)])] [(.ite (.app (.var «stx-null?») [(.var «rib2»)]) (.app (.var «void») []) (.letv []
  [(.app (.var «raise-syntax-error») [(.quote (.sym .setb)), (.lit (.const 193)), (.var «form»)])]))])]))

/-- define check-lambda-form! (boot.min:112-112) -/
def boot_112 : E := (.define [«check-lambda-form!»] (.lam ⟨[«form»], none⟩ [(.letrecv [.mk [«rib0»] (.app (.var «stx-cdr») [(.var «form»)]), .mk [] (.letv []
  [(.ite (.app (.var «stx-null?») [(.var «rib0»)]) (.letv [] [(.app (.var «raise-syntax-error») [(.lit .fls), (.lit (.const 199)), (.var «form»)])]) (.app (.var
  «void») [])), (.app (.var .values) [])]), .mk [«formals»] (.app (.var «stx-car») [(.var «rib0»)]), .mk [«rib1»] (.app (.var «stx-cdr») [(.var «rib0»)]), .mk
  [] (.letv [] [(.ite (.app (.var «null?») [(.var «rib1»)]) (.letv [] [(.app (.var «raise-syntax-error») [(.lit .fls), (.lit (.const 200)), (.var «form»)])])
  (.app (.var «void») [])), (.app (.var .values) [])]), .mk [«rib2»] (.app (.var «stx-cdr») [(.var «rib1»)])] [(.ite (.letv [.mk [«or-t»] (.app (.var «list?»)
  [(.var «rib2»)])] [(.ite (.var «or-t») (.var «or-t») (.ite (.app (.var «syntax?») [(.var «rib2»)]) (.app (.var «list?») [(.app (.var «syntax->list») [(.var
  «rib2»)])]) (.lit .fls)))]) (.app (.var «void») []) (.letv [] [(.app (.var «raise-syntax-error») [(.lit .fls), (.lit (.const 201)), (.var «form»)])]))])]))

/-- define check-case-lambda-form! (boot.min:113-113) -/
def boot_113 : E := (.define [«check-case-lambda-form!»] (.lam ⟨[«form»], none⟩ [(.letrecv [.mk [«clauses»] (.app (.var «stx-cdr») [(.var «form»)])] [(.letrecv
  [.mk [«loop»] (.lam ⟨[«clauses»], none⟩ [(.ite (.app (.var «pair?») [(.var «clauses»)]) (.letv [] [(.letrecv [.mk [«clause»] (.app (.var «car») [(.var
  «clauses»)]), .mk [] (.letv [] [(.ite (.app (.var «stx-null?») [(.var «clause»)]) (.letv [] [(.app (.var «raise-syntax-error») [(.lit .fls), (.lit (.const
  199)), (.var «form»)])]) (.app (.var «void») [])), (.app (.var .values) [])]), .mk [«formals»] (.app (.var «stx-car») [(.var «clause»)]), .mk [«rib1»] (.app
  (.var «stx-cdr») [(.var «clause»)]), .mk [] (.letv [] [(.ite (.app (.var «null?») [(.var «rib1»)]) (.letv [] [(.app (.var «raise-syntax-error») [(.lit .fls),
  (.lit (.const 200)), (.var «form»)])]) (.app (.var «void») [])), (.app (.var .values) [])]), .mk [«rib2»] (.app (.var «stx-cdr») [(.var «rib1»)]), .mk []
  (.letv [] [(.ite (.letv [.mk [«or-t»] (.app (.var «list?») [(.var «rib2»)])] [(.ite (.var «or-t») (.var «or-t») (.ite (.app (.var «syntax?») [(.var «rib2»)])
  (.app (.var «list?») [(.app (.var «syntax->list») [(.var «rib2»)])]) (.lit .fls)))]) (.app (.var «void») []) (.letv [] [(.app (.var «raise-syntax-error»)
  [(.lit .fls), (.lit (.const 201)), (.var «form»)])])), (.app (.var .values) [])])] [(.app (.var «loop») [(.app (.var «cdr») [(.var «clauses»)])])])]) (.ite
  (.app (.var «null?») [(.var «clauses»)]) (.app (.var «void») []) (.app (.var «raise-syntax-error») [(.lit .fls), (.lit (.const 190)), (.var «form»)])))])]
  [(.app (.var «loop») [(.var «clauses»)])])])]))

/-- define check-begin-form! (boot.min:114-114) -/
def boot_114 : E := (.define [«check-begin-form!»] (.lam ⟨[«form»], none⟩ [(.ite (.app (.var «syntax->list») [(.var «form»)]) (.app (.var «void») []) (.letv []
  [(.app (.var «raise-syntax-error») [(.quote (.sym .begin)), (.lit (.const 190)), (.var «form»)])]))]))

/-- define check-1ary-form! (boot.min:115-115) -/
def boot_115 : E := (.define [«check-1ary-form!»] (.lam ⟨[«name», «form»], none⟩ [(.letrecv [.mk [«rib0»] (.app (.var «stx-cdr») [(.var «form»)]), .mk [] (.letv
  [] [(.ite (.app (.var «stx-null?») [(.var «rib0»)]) (.letv [] [(.app (.var «raise-syntax-error») [(.var «name»), (.lit (.const 202)), (.var «form»)])]) (.app
  (.var «void») [])), (.app (.var .values) [])]), .mk [«rib1»] (.app (.var «stx-cdr») [(.var «rib0»)])] [(.ite (.app (.var «stx-null?») [(.var «rib1»)]) (.app
  (.var «void») []) (.letv [] [(.app (.var «raise-syntax-error») [(.var «name»), (.lit (.const 193)), (.var «form»)])]))])]))

/-- define check-if-form! (boot.min:116-116) -/
def boot_116 : E := (.define [«check-if-form!»] (.lam ⟨[«form»], none⟩ [(.letrecv [.mk [«rib»] (.app (.var «stx-cdr») [(.var «form»)]), .mk [] (.letv [] [(.ite
  (.app (.var «stx-null?») [(.var «rib»)]) (.letv [] [(.app (.var «raise-syntax-error») [(.quote (.sym .ifS)), (.lit (.const 190)), (.var «form»)])]) (.app
  (.var «void») [])), (.app (.var .values) [])]), .mk [«cond-rib»] (.app (.var «stx-cdr») [(.var «rib»)]), .mk [] (.letv [] [(.ite (.app (.var «stx-null?»)
  [(.var «cond-rib»)]) (.letv [] [(.app (.var «raise-syntax-error») [(.quote (.sym .ifS)), (.lit (.const 190)), (.var «form»)])]) (.app (.var «void») [])),
  (.app (.var .values) [])]), .mk [«ift-rib»] (.app (.var «stx-cdr») [(.var «cond-rib»)]), .mk [] (.letv [] [(.ite (.app (.var «stx-null?») [(.var «ift-rib»)])
  (.letv [] [(.app (.var «raise-syntax-error») [(.quote (.sym .ifS)), (.lit (.const 203)), (.var «form»)])]) (.app (.var «void») [])), (.app (.var .values)
  [])]), .mk [«iff-rib»] (.app (.var «stx-cdr») [(.var «ift-rib»)])] [(.ite (.app (.var «stx-null?») [(.var «iff-rib»)]) (.app (.var «void») []) (.letv []
  [(.app (.var «raise-syntax-error») [(.quote (.sym .ifS)), (.lit (.const 193)), (.var «form»)])]))])]))

/-- define check-duplicate-identifier! (boot.min:117-117) -/
def boot_117 : E := (.define [«check-duplicate-identifier!»] (.lam ⟨[«form», «name», «ids», «new-ids»], none⟩ [(.letrecv [.mk [«dup»] (.app (.var
  «duplicate-identifier») [(.var «ids»), (.var «new-ids»)])] [(.ite (.var «dup») (.letv [] [(.app (.var «raise-syntax-error») [(.var «name»), (.lit (.const
  204)), (.var «form»), (.app (.var «datum->syntax») [(.var «dup»)])])]) (.app (.var «void») []))])]))

/-- define $expander-pattern-vars (boot.min:118-118) -/
def boot_118 : E := (.define [«$expander-pattern-vars»] (.var «null»))

/-- define $base-stx-env (boot.min:119-119) -/
def boot_119 : E := (.define [«$base-stx-env»] (.lam ⟨[«env»], none⟩ [(.letv [.mk [«env»] (.app (.var «copy-environment») [(.var «env»), (.lit .fls)])] [(.app
  (.var «environment-set!») [(.var «env»), (.quote (.sym «get-pattern-variable»)), (.lam ⟨[«k»], none⟩ [(.ite (.app (.var «symbol?») [(.var «k»)]) (.letrecv
  [.mk [«loop»] (.lam ⟨[«assoc»], none⟩ [(.ite (.app (.var «null?») [(.var «assoc»)]) (.lit .fls) (.ite (.app (.var «eq?») [(.app (.var «caar») [(.var
  «assoc»)]), (.var «k»)]) (.app (.var «cadar») [(.var «assoc»)]) (.app (.var «loop») [(.app (.var «cdr») [(.var «assoc»)])])))])] [(.app (.var «loop») [(.var
  «$expander-pattern-vars»)])]) (.app (.var «raise-argument-error») [(.quote (.sym «get-pattern-variable»)), (.lit (.const 23)), (.var «k»)]))])]), (.var
  «env»)])]))

/-- define define-syntaxes/values-identifiers (boot.min:120-120) -/
def boot_120 : E := (.define [«define-syntaxes/values-identifiers»] (.lam ⟨[«form»], none⟩ [(.app (.var «map») [(.var «syntax-e»), (.app (.var «syntax->list»)
  [(.app (.var «stx-car») [(.app (.var «stx-cdr») [(.var «form»)])])])])]))

/-- define define-syntaxes/values-expr (boot.min:121-121) -/
def boot_121 : E := (.define [«define-syntaxes/values-expr»] (.lam ⟨[«form»], none⟩ [(.app (.var «stx-car») [(.app (.var «stx-cdr») [(.app (.var «stx-cdr»)
  [(.var «form»)])])])]))

/-- define check/module! (boot.min:122-122) -/
def boot_122 : E := (.define [«check/module!»] (.lam ⟨[«path», «exprs», «scope»], none⟩ [(.letrecv [.mk [«bind/define-values»] (.lam ⟨[«form»], none⟩ [(.app
  (.var «for-each») [(.lam ⟨[«id»], none⟩ [(.app (.var «scope-add!») [(.var «scope»), (.var «id»)])]), (.app (.var «define-syntaxes/values-identifiers») [(.var
  «form»)])])]), .mk [«check/formals!»] (.lam ⟨[«scope», «formals», «expr»], none⟩ [(.letrecv [.mk [«rec»] (.lam ⟨[«formals»], none⟩ [(.ite (.app (.var «pair?»)
  [(.var «formals»)]) (.letv [] [(.app (.var «scope-add!») [(.var «scope»), (.app (.var «car») [(.var «formals»)])]), (.app (.var «rec») [(.app (.var «cdr»)
  [(.var «formals»)])])]) (.ite (.app (.var «symbol?») [(.var «formals»)]) (.app (.var «scope-add!») [(.var «scope»), (.var «formals»)]) (.ite (.app (.var
  «null?») [(.var «formals»)]) (.app (.var «void») []) (.app (.var «error») [(.quote (.sym «check/expr!»)), (.lit (.const 205)), (.var «expr»)]))))])] [(.app
  (.var «rec») [(.app (.var «syntax->datum») [(.var «formals»)])])])]), .mk [«check/expr!»] (.lam ⟨[«expr0», «scope»], none⟩ [(.letrecv [.mk [«loop»] (.lam
  ⟨[«expr»], none⟩ [(.ite (.app (.var «lambda-form?») [(.var «expr»)]) (.letv [] [(.letrecv [.mk [«formals»] (.app (.var «car») [(.app (.var «stx-cdr») [(.var
  «expr»)])]), .mk [«body»] (.app (.var «cdr») [(.app (.var «stx-cdr») [(.var «expr»)])]), .mk [«scope*»] (.app (.var «scope-extend») [(.var «scope»)]), .mk []
  (.letv [] [(.app (.var «check/formals!») [(.var «scope*»), (.var «formals»), (.var «expr»)]), (.app (.var .values) [])])] [(.app (.var «for-each») [(.lam
  ⟨[«e»], none⟩ [(.app (.var «check/expr!») [(.var «e»), (.var «scope*»)])]), (.var «body»)])])]) (.ite (.app (.var «case-lambda-form?») [(.var «expr»)]) (.app
  (.var «for-each») [(.lam ⟨[«clause»], none⟩ [(.letrecv [.mk [«formals»] (.app (.var «stx-car») [(.var «clause»)]), .mk [«body»] (.app (.var «stx-cdr») [(.var
  «clause»)]), .mk [«scope*»] (.app (.var «scope-extend») [(.var «scope»)]), .mk [] (.letv [] [(.app (.var «check/formals!») [(.var «scope*»), (.var «formals»),
  (.var «expr»)]), (.app (.var .values) [])])] [(.app (.var «for-each») [(.lam ⟨[«e»], none⟩ [(.app (.var «check/expr!») [(.var «e»), (.var «scope*»)])]), (.var
  «body»)])])]), (.app (.var «stx-cdr») [(.var «expr»)])]) (.ite (.letv [.mk [«or-t»] (.app (.var «let-values-form?») [(.var «expr»)])] [(.ite (.var «or-t»)
  (.var «or-t») (.app (.var «letrec-values-form?») [(.var «expr»)]))]) (.letv [] [(.letrecv [.mk [«bindings»] (.app (.var «stx-car») [(.app (.var «stx-cdr»)
  [(.var «expr»)])]), .mk [«body»] (.app (.var «stx-cdr») [(.app (.var «stx-cdr») [(.var «expr»)])]), .mk [«scope*»] (.app (.var «scope-extend») [(.var
  «scope»)]), .mk [«rec-scope»] (.ite (.app (.var «let-values-form?») [(.var «expr»)]) (.var «scope») (.var «scope*»)), .mk [] (.letv [] [(.letrecv [.mk [«rec»]
  (.lam ⟨[«bindings»], none⟩ [(.ite (.app (.var «null?») [(.var «bindings»)]) (.app (.var «void») []) (.letv [] [(.letrecv [.mk [«binding»] (.app (.var
  «syntax->list») [(.app (.var «car») [(.var «bindings»)])]), .mk [«ids»] (.app (.var «syntax->datum») [(.app (.var «first») [(.var «binding»)])]), .mk []
  (.letv [] [(.app (.var «for-each») [(.lam ⟨[«id»], none⟩ [(.app (.var «scope-add!») [(.var «scope*»), (.var «id»)])]), (.var «ids»)]), (.app (.var .values)
  [])])] [(.app (.var «rec») [(.app (.var «cdr») [(.var «bindings»)])])])]))])] [(.app (.var «rec») [(.app (.var «syntax->list») [(.var «bindings»)])])]), (.app
  (.var .values) [])]), .mk [] (.letv [] [(.letrecv [.mk [«rec»] (.lam ⟨[«bindings»], none⟩ [(.ite (.app (.var «null?») [(.var «bindings»)]) (.app (.var «void»)
  []) (.letv [] [(.letrecv [.mk [«binding»] (.app (.var «syntax->list») [(.app (.var «car») [(.var «bindings»)])]), .mk [«val»] (.app (.var «second») [(.var
  «binding»)]), .mk [] (.letv [] [(.app (.var «check/expr!») [(.var «val»), (.var «rec-scope»)]), (.app (.var .values) [])])] [(.app (.var «rec») [(.app (.var
  «cdr») [(.var «bindings»)])])])]))])] [(.app (.var «rec») [(.app (.var «syntax->list») [(.var «bindings»)])])]), (.app (.var .values) [])])] [(.app (.var
  «for-each») [(.lam ⟨[«e»], none⟩ [(.app (.var «check/expr!») [(.var «e»), (.var «scope*»)])]), (.var «body»)])])]) (.ite (.app (.var «set!-form?») [(.var
  «expr»)]) (.app (.var «loop») [(.app (.var «third») [(.app (.var «syntax->list») [(.var «expr»)])])]) (.ite (.app (.var «if-form?») [(.var «expr»)]) (.app
  (.var «for-each») [(.var «loop»), (.app (.var «stx-cdr») [(.var «expr»)])]) (.ite (.app (.var «begin-form?») [(.var «expr»)]) (.app (.var «for-each») [(.var
  «loop»), (.app (.var «stx-cdr») [(.var «expr»)])]) (.ite (.letv [.mk [«or-t»] (.app (.var «quote-form?») [(.var «expr»)])] [(.ite (.var «or-t») (.var «or-t»)
  (.letv [.mk [«or-t»] (.app (.var «quote-syntax-form?») [(.var «expr»)])] [(.ite (.var «or-t») (.var «or-t») (.app (.var «stx-self-evaluating?») [(.var
  «expr»)]))]))]) (.app (.var «void») []) (.ite (.app (.var «stx-pair?») [(.var «expr»)]) (.app (.var «for-each») [(.var «loop»), (.app (.var «syntax->list»)
  [(.var «expr»)])]) (.ite (.app (.var «identifier?») [(.var «expr»)]) (.letv [] [(.letrecv [.mk [«id»] (.app (.var «syntax-e») [(.var «expr»)])] [(.ite (.app
  (.var «scope-contains?») [(.var «scope»), (.var «id»)]) (.app (.var «void») []) (.letv [] [(.app (.var «printf») [(.lit (.const 206)), (.var «path»), (.var
  «id»)]), (.app (.var «printf») [(.lit (.const 152)), (.app (.var «syntax->datum») [(.var «expr0»)])]), (.app (.var «exit») [(.lit (.const 21))])]))])]) (.app
  (.var «error») [(.quote (.sym «check/expr!»)), (.lit (.const 207)), (.var «expr»)]))))))))))])] [(.app (.var «loop») [(.var «expr0»)])])]), .mk [] (.letv []
  [(.app (.var «for-each») [(.lam ⟨[«form»], none⟩ [(.ite (.app (.var «define-values-form?») [(.var «form»)]) (.letv [] [(.app (.var «bind/define-values»)
  [(.var «form»)])]) (.app (.var «void») []))]), (.var «exprs»)]), (.app (.var .values) [])]), .mk [] (.letv [] [(.app (.var «for-each») [(.lam ⟨[«form»], none⟩
  [(.ite (.app (.var «define-values-form?») [(.var «form»)]) (.app (.var «check/expr!») [(.app (.var «define-syntaxes/values-expr») [(.var «form»)]), (.var
  «scope»)]) (.app (.var «check/expr!») [(.var «form»), (.var «scope»)]))]), (.var «exprs»)]), (.app (.var .values) [])])] [(.app (.var «void») [])])]))

/-- define expand/module (boot.min:123-123) -/
def boot_123 : E := (.define [«expand/module»] (.lam ⟨[«path», «exprs», «xforms», «env», «scope»], none⟩ [(.letrecv [.mk [«eval/values»] (.lam ⟨[«expr», «env»],
  none⟩ [(.app (.var .callWithValues) [(.lam ⟨[], none⟩ [(.app (.var «eval») [(.var «expr»), (.var «env»)])]), (.lam ⟨[], some «results»⟩ [(.var
  «results»)])])]), .mk [«eval/xform»] (.lam ⟨[«xform», «expr», «name»], none⟩ [(.letrecv [.mk [«fn»] (.app (.var «car») [(.var «xform»)])] [(.app (.var
  .callWithValues) [(.lam ⟨[], none⟩ [(.app (.var «fn») [(.var «expr»)])]), (.lam ⟨[], some «results»⟩ [(.ite (.app (.var «not») [(.app (.var «=») [(.app (.var
  «length») [(.var «results»)]), (.lit (.const 21))])]) (.app (.var «error») [(.lit .fls), (.lit (.const 208)), (.lit (.const 209)), (.lit (.const 210)), (.lit
  (.const 33))]) (.ite (.app (.var «syntax?») [(.app (.var «car») [(.var «results»)])]) (.app (.var «car») [(.var «results»)]) (.app (.var «error») [(.var
  «name»), (.lit (.const 211)), (.app (.var «car») [(.var «results»)])])))])])])]), .mk [«expand/body»] (.lam ⟨[«exprs», «xforms»], none⟩ [(.letrecv [.mk
  [«loop»] (.lam ⟨[«expr0», «rest», «defines»], none⟩ [(.letrecv [.mk [«expr*»] (.app (.var «expand/expr») [(.var «expr0»), (.var «xforms»), (.lit .fls)])]
  [(.ite (.app (.var «begin-form?») [(.var «expr*»)]) (.letv [] [(.letrecv [.mk [«form»] (.app (.var «syntax->list») [(.var «expr*»)])] [(.app (.var «loop»)
  [(.app (.var «cadr») [(.var «form»)]), (.app (.var «append») [(.app (.var «cddr») [(.var «form»)]), (.var «rest»)]), (.var «defines»)])])]) (.ite (.app (.var
  «define-syntaxes-form?») [(.var «expr*»)]) (.letv [] [(.ite (.app (.var «null?») [(.var «rest»)]) (.letv [] [(.app (.var «error») [(.quote (.sym
  «define-syntaxes»)), (.lit (.const 212)), (.var «expr0»)])]) (.app (.var «void») [])), (.letrecv [.mk [«form»] (.app (.var «syntax->list») [(.var «expr*»)]),
  .mk [«ids»] (.app (.var «second») [(.var «form»)]), .mk [«value»] (.app (.var «third») [(.var «form»)])] [(.app (.var «list») [(.app (.var «datum->syntax»)
  [(.app (.var «list») [(.quoteSyntax (.sym .letrecValues)), (.app (.var «map») [(.lam ⟨[«bind»], none⟩ [(.app (.var «list») [(.app (.var «car») [(.var
  «bind»)]), (.app (.var «cdr») [(.var «bind»)])])]), (.app (.var «reverse») [(.var «defines»)])]), (.app (.var «expand/expr») [(.app (.var «datum->syntax»)
  [(.app (.var «cons*») [(.quoteSyntax (.sym «let-syntaxes»)), (.app (.var «list») [(.app (.var «list») [(.var «ids»), (.var «value»)])]), (.var «rest»)])]),
  (.var «xforms»), (.lit .tru)])])])])])]) (.ite (.app (.var «define-values-form?») [(.var «expr*»)]) (.letv [] [(.ite (.app (.var «null?») [(.var «rest»)])
  (.letv [] [(.app (.var «error») [(.quote (.sym .defineValues)), (.lit (.const 212)), (.var «expr0»)])]) (.app (.var «void») [])), (.letrecv [.mk [«form»]
  (.app (.var «syntax->list») [(.var «expr*»)]), .mk [«ids»] (.app (.var «second») [(.var «form»)]), .mk [«value»] (.app (.var «expand/expr») [(.app (.var
  «third») [(.var «form»)]), (.var «xforms»), (.lit .tru)])] [(.app (.var «loop») [(.app (.var «car») [(.var «rest»)]), (.app (.var «cdr») [(.var «rest»)]),
  (.app (.var «cons») [(.app (.var «cons») [(.var «ids»), (.var «value»)]), (.var «defines»)])])])]) (.ite (.app (.var «not») [(.app (.var «null?») [(.var
  «rest»)])]) (.ite (.app (.var «null?») [(.var «defines»)]) (.app (.var «cons*») [(.var «expr*»), (.app (.var «loop») [(.app (.var «car») [(.var «rest»)]),
  (.app (.var «cdr») [(.var «rest»)]), (.var «defines»)])]) (.letv [] [(.letrecv [.mk [«bind-expr»] (.app (.var «list») [(.quoteSyntax (.sym .letValues)),
  (.quote .null), (.var «expr*»), (.app (.var «list») [(.quoteSyntax (.sym .values))])])] [(.app (.var «loop») [(.app (.var «car») [(.var «rest»)]), (.app (.var
  «cdr») [(.var «rest»)]), (.app (.var «cons») [(.app (.var «cons») [(.quote .null), (.var «bind-expr»)]), (.var «defines»)])])])])) (.ite (.app (.var «null?»)
  [(.var «defines»)]) (.app (.var «list») [(.var «expr*»)]) (.app (.var «list») [(.app (.var «datum->syntax») [(.app (.var «list») [(.quoteSyntax (.sym
  .letrecValues)), (.app (.var «map») [(.lam ⟨[«bind»], none⟩ [(.app (.var «list») [(.app (.var «car») [(.var «bind»)]), (.app (.var «cdr») [(.var
  «bind»)])])]), (.app (.var «reverse») [(.var «defines»)])]), (.var «expr*»)])])]))))))])])] [(.app (.var «loop») [(.app (.var «car») [(.var «exprs»)]), (.app
  (.var «cdr») [(.var «exprs»)]), (.quote .null)])])]), .mk [«expand/expr»] (.lam ⟨[«expr», «xforms», «recur-begin?»], none⟩ [(.letrecv [.mk [«patterns»] (.app
  (.var «filter») [(.lam ⟨[«e»], none⟩ [(.app (.var «pattern-variable?») [(.app (.var «cadr») [(.var «e»)])])]), (.var «xforms»)]), .mk [] (.letv [] [(.set
  «$expander-pattern-vars» (.var «patterns»)), (.app (.var .values) [])])] [(.letrecv [.mk [«loop»] (.lam ⟨[«expr»], none⟩ [(.ite (.app (.var
  «stx-self-evaluating?») [(.var «expr»)]) (.var «expr») (.ite (.app (.var «identifier?») [(.var «expr»)]) (.letv [] [(.letrecv [.mk [«id»] (.app (.var
  «syntax->datum») [(.var «expr»)]), .mk [«maybe-xform»] (.app (.var «lookup-xform») [(.var «expr»), (.var «xforms»)])] [(.ite (.var «maybe-xform») (.app (.var
  «loop») [(.app (.var «eval/xform») [(.var «maybe-xform»), (.var «expr»), (.var «id»)])]) (.var «expr»))])]) (.ite (.letv [.mk [«or-t»] (.app (.var
  «define-values-form?») [(.var «expr»)])] [(.ite (.var «or-t») (.var «or-t») (.app (.var «define-syntaxes-form?») [(.var «expr»)]))]) (.var «expr») (.ite (.app
  (.var «let-syntaxes-form?») [(.var «expr»)]) (.letv [] [(.app (.var «check-let-syntaxes/values-form!») [(.quote (.sym «let-syntaxes»)), (.var «expr»)]),
  (.letrecv [.mk [«form»] (.app (.var «syntax->list») [(.var «expr»)]), .mk [«body»] (.app (.var «cddr») [(.var «form»)]), .mk [«let-ids»] (.app (.var
  «make-set») [])] [(.letrecv [.mk [«rec»] (.lam ⟨[«bindings», «xforms»], none⟩ [(.ite (.app (.var «null?») [(.var «bindings»)]) (.app (.var «datum->syntax»)
  [(.app (.var «cons*») [(.quoteSyntax (.sym .letValues)), (.quote .null), (.app (.var «expand/body») [(.var «body»), (.var «xforms»)])])]) (.letv [] [(.letrecv
  [.mk [«binding»] (.app (.var «syntax->list») [(.app (.var «car») [(.var «bindings»)])]), .mk [«binding-ids»] (.app (.var «syntax->datum») [(.app (.var «car»)
  [(.var «binding»)])]), .mk [] (.letv [] [(.app (.var «check-duplicate-identifier!») [(.var «expr»), (.quote (.sym «let-syntaxes»)), (.var «let-ids»), (.var
  «binding-ids»)]), (.app (.var .values) [])]), .mk [«rhs»] (.app (.var «expand/expr») [(.app (.var «cadr») [(.var «binding»)]), (.var «xforms»), (.lit .tru)]),
  .mk [«results»] (.app (.var «eval/values») [(.app (.var «syntax->datum») [(.var «rhs»)]), (.var «env»)]), .mk [] (.letv [] [(.ite (.app (.var «=») [(.app
  (.var «length») [(.var «binding-ids»)]), (.app (.var «length») [(.var «results»)])]) (.app (.var «void») []) (.letv [] [(.app (.var «error») [(.quote (.sym
  «let-syntaxes»)), (.lit (.const 208)), (.lit (.const 213)), (.app (.var «length») [(.var «binding-ids»)]), (.lit (.const 210)), (.app (.var «length») [(.var
  «results»)])])])), (.app (.var .values) [])])] [(.letrecv [.mk [«bind-xforms»] (.lam ⟨[«ids», «results», «xforms»], none⟩ [(.ite (.app (.var «null?») [(.var
  «ids»)]) (.letv [] [(.app (.var «for-each») [(.lam ⟨[«id»], none⟩ [(.app (.var «set-add!») [(.var «let-ids»), (.var «id»)])]), (.var «binding-ids»)]), (.app
  (.var «rec») [(.app (.var «cdr») [(.var «bindings»)]), (.var «xforms»)])]) (.letv [] [(.letrecv [.mk [«id»] (.app (.var «car») [(.var «ids»)]), .mk [«xform»]
  (.app (.var «car») [(.var «results»)]), .mk [] (.letv [] [(.ite (.letv [.mk [«or-t»] (.app (.var «procedure?») [(.var «xform»)])] [(.ite (.var «or-t») (.var
  «or-t») (.app (.var «pattern-variable?») [(.var «xform»)]))]) (.app (.var «void») []) (.letv [] [(.app (.var «raise-argument-error») [(.quote (.sym
  «let-syntaxes»)), (.lit (.const 214)), (.var «xform»)])])), (.app (.var .values) [])]), .mk [«xform-entry»] (.app (.var «cons») [(.var «id»), (.app (.var
  «list») [(.var «xform»), (.var «xforms»)])])] [(.app (.var «bind-xforms») [(.app (.var «cdr») [(.var «ids»)]), (.app (.var «cdr») [(.var «results»)]), (.app
  (.var «cons») [(.var «xform-entry»), (.var «xforms»)])])])]))])] [(.app (.var «bind-xforms») [(.var «binding-ids»), (.var «results»), (.var
  «xforms»)])])])]))])] [(.app (.var «rec») [(.app (.var «syntax->list») [(.app (.var «cadr») [(.var «form»)])]), (.var «xforms»)])])])]) (.ite (.letv [.mk
  [«or-t»] (.app (.var «let-values-form?») [(.var «expr»)])] [(.ite (.var «or-t») (.var «or-t») (.app (.var «letrec-values-form?») [(.var «expr»)]))]) (.letv []
  [(.letrecv [.mk [«name»] (.ite (.app (.var «let-values-form?») [(.var «expr»)]) (.quote (.sym .letValues)) (.quote (.sym .letrecValues))), .mk [] (.letv []
  [(.app (.var «check-let-syntaxes/values-form!») [(.var «name»), (.var «expr»)]), (.app (.var .values) [])]), .mk [«form»] (.app (.var «syntax->list») [(.var
  «expr»)]), .mk [«body»] (.app (.var «cddr») [(.var «form»)]), .mk [«ids»] (.app (.var «make-set») [])] [(.app (.var «datum->syntax») [(.app (.var «cons*»)
  [(.app (.var «car») [(.var «form»)]), (.app (.var «map») [(.lam ⟨[«bind»], none⟩ [(.letrecv [.mk [«bind*»] (.app (.var «syntax->list») [(.var «bind»)]), .mk
  [«bind-ids»] (.app (.var «syntax->datum») [(.app (.var «first») [(.var «bind*»)])]), .mk [] (.letv [] [(.app (.var «check-duplicate-identifier!») [(.var
  «expr»), (.var «name»), (.var «ids»), (.var «bind-ids»)]), (.app (.var .values) [])]), .mk [] (.letv [] [(.app (.var «for-each») [(.lam ⟨[«id»], none⟩ [(.app
  (.var «set-add!») [(.var «ids»), (.var «id»)])]), (.var «bind-ids»)]), (.app (.var .values) [])])] [(.app (.var «list») [(.app (.var «first») [(.var
  «bind*»)]), (.app (.var «loop») [(.app (.var «second») [(.var «bind*»)])])])])]), (.app (.var «syntax->list») [(.app (.var «cadr») [(.var «form»)])])]), (.app
  (.var «expand/body») [(.var «body»), (.var «xforms»)])])])])]) (.ite (.app (.var «lambda-form?») [(.var «expr»)]) (.letv [] [(.app (.var «check-lambda-form!»)
  [(.var «expr»)]), (.letrecv [.mk [«head»] (.app (.var «stx-car») [(.var «expr»)]), .mk [«formals»] (.app (.var «stx-car») [(.app (.var «stx-cdr») [(.var
  «expr»)])]), .mk [«body»] (.app (.var «stx-cdr») [(.app (.var «stx-cdr») [(.var «expr»)])])] [(.app (.var «datum->syntax») [(.app (.var «cons*») [(.var
  «head»), (.var «formals»), (.app (.var «expand/body») [(.var «body»), (.var «xforms»)])])])])]) (.ite (.app (.var «case-lambda-form?») [(.var «expr»)]) (.letv
  [] [(.app (.var «check-case-lambda-form!») [(.var «expr»)]), (.letrecv [.mk [«head»] (.app (.var «stx-car») [(.var «expr»)])] [(.app (.var «datum->syntax»)
  [(.app (.var «cons») [(.var «head»), (.app (.var «map») [(.lam ⟨[«clause»], none⟩ [(.letrecv [.mk [«formals»] (.app (.var «stx-car») [(.var «clause»)])]
  [(.app (.var «cons») [(.var «formals»), (.app (.var «expand/body») [(.app (.var «stx-cdr») [(.var «clause»)]), (.var «xforms»)])])])]), (.app (.var «stx-cdr»)
  [(.var «expr»)])])])])])]) (.ite (.app (.var «if-form?») [(.var «expr»)]) (.letv [] [(.app (.var «check-if-form!») [(.var «expr»)]), (.letrecv [.mk [«form»]
  (.app (.var «syntax->list») [(.var «expr»)])] [(.app (.var «datum->syntax») [(.app (.var «cons») [(.app (.var «first») [(.var «form»)]), (.app (.var «map»)
  [(.var «loop»), (.app (.var «cdr») [(.var «form»)])])])])])]) (.ite (.app (.var «begin-form?») [(.var «expr»)]) (.letv [] [(.app (.var «check-begin-form!»)
  [(.var «expr»)]), (.letrecv [.mk [«body»] (.app (.var «stx-cdr») [(.var «expr»)])] [(.ite (.app (.var «null?») [(.var «body»)]) (.app (.var «datum->syntax»)
  [(.quote (.cons (.sym «void») .null))]) (.ite (.var «recur-begin?») (.letv [] [(.letrecv [.mk [«body*»] (.app (.var «expand/body») [(.var «body»), (.var
  «xforms»)])] [(.ite (.app (.var «null?») [(.app (.var «cdr») [(.var «body*»)])]) (.app (.var «car») [(.var «body*»)]) (.app (.var «datum->syntax») [(.app
  (.var «cons*») [(.quote (.sym .begin)), (.var «body*»)])]))])]) (.app (.var «datum->syntax») [(.app (.var «cons*») [(.quote (.sym .begin)), (.app (.var «map»)
  [(.var «loop»), (.var «body»)])])])))])]) (.ite (.app (.var «set!-form?») [(.var «expr»)]) (.letv [] [(.app (.var «check-set!-form!») [(.var «expr»)]),
  (.letrecv [.mk [«form»] (.app (.var «syntax->list») [(.var «expr»)])] [(.app (.var «datum->syntax») [(.app (.var «list») [(.app (.var «first») [(.var
  «form»)]), (.app (.var «second») [(.var «form»)]), (.app (.var «loop») [(.app (.var «third») [(.var «form»)])])])])])]) (.ite (.app (.var «quote-form?»)
  [(.var «expr»)]) (.letv [] [(.app (.var «check-1ary-form!») [(.quote (.sym .quote)), (.var «expr»)]), (.var «expr»)]) (.ite (.app (.var «quote-syntax-form?»)
  [(.var «expr»)]) (.letv [] [(.app (.var «check-1ary-form!») [(.quote (.sym .quoteSyntax)), (.var «expr»)]), (.var «expr»)]) (.ite (.app (.var «stx-pair?»)
  [(.var «expr»)]) (.letv [] [(.letrecv [.mk [«head»] (.app (.var «stx-car») [(.var «expr»)]), .mk [«maybe-xform»] (.app (.var «lookup-xform») [(.var «head»),
  (.var «xforms»)])] [(.ite (.var «maybe-xform») (.app (.var «expand/expr») [(.app (.var «eval/xform») [(.var «maybe-xform»), (.var «expr»), (.app (.var
  «syntax-e») [(.var «head»)])]), (.app (.var «merge-xforms») [(.var «xforms»), (.app (.var «cadr») [(.var «maybe-xform»)])]), (.var «recur-begin?»)]) (.letv
  [.mk [«stx-lst»] (.app (.var «syntax->list») [(.var «expr»)])] [(.ite (.app (.var «list?») [(.var «stx-lst»)]) (.app (.var «datum->syntax») [(.app (.var
  «map») [(.var «loop»), (.var «stx-lst»)])]) (.app (.var «error») [(.quote (.sym «expand/expr»)), (.lit (.const 215)), (.var «expr»)]))]))])]) (.app (.var
  «raise-syntax-error») [(.quote (.sym «expand/expr»)), (.lit (.const 190)), (.var «expr»)]))))))))))))))])] [(.app (.var «loop») [(.var «expr»)])])])]), .mk
  [«expand/module*»] (.lam ⟨[«exprs», «xforms»], none⟩ [(.letrecv [.mk [«expand/top-level»] (.lam ⟨[«expr», «xforms»], none⟩ [(.ite (.app (.var
  «define-syntaxes-form?») [(.var «expr»)]) (.app (.var .values) [(.var «expr»), (.var «xforms»)]) (.ite (.app (.var «define-values-form?») [(.var «expr»)])
  (.app (.var .values) [(.var «expr»), (.var «xforms»)]) (.ite (.app (.var «begin-form?») [(.var «expr»)]) (.app (.var .values) [(.var «expr»), (.var
  «xforms»)]) (.ite (.ite (.app (.var «stx-pair?») [(.var «expr»)]) (.app (.var «identifier?») [(.app (.var «stx-car») [(.var «expr»)])]) (.lit .fls)) (.letv []
  [(.letrecv [.mk [«head»] (.app (.var «stx-car») [(.var «expr»)]), .mk [«maybe-xform»] (.app (.var «lookup-xform») [(.var «head»), (.var «xforms»)])] [(.ite
  (.var «maybe-xform») (.app (.var «expand/top-level») [(.app (.var «eval/xform») [(.var «maybe-xform»), (.var «expr»), (.app (.var «syntax-e») [(.var
  «head»)])]), (.app (.var «merge-xforms») [(.var «xforms»), (.app (.var «cadr») [(.var «maybe-xform»)])])]) (.app (.var .values) [(.var «expr»), (.var
  «xforms»)]))])]) (.app (.var .values) [(.var «expr»), (.var «xforms»)])))))]), .mk [«expand/non-define-values»] (.lam ⟨[«exprs», «xforms»], none⟩ [(.letrecv
  [.mk [«define-ids»] (.app (.var «make-set») []), .mk [«xform-ids»] (.app (.var «make-set») []), .mk [«exprs*»] (.letrecv [.mk [«loop»] (.lam ⟨[«exprs»], none⟩
  [(.ite (.app (.var «null?») [(.var «exprs»)]) (.var «null») (.letrecv [.mk [«with-scope»] (.lam ⟨[«exprs», «in-scope0»], none⟩ [(.letrecv [.mk [«expr»,
  «in-scope»] (.app (.var «expand/top-level») [(.app (.var «car») [(.var «exprs»)]), (.var «in-scope0»)])] [(.ite (.app (.var «define-syntaxes-form?») [(.var
  «expr»)]) (.letv [] [(.app (.var «check-define-syntaxes/values-form!») [(.quote (.sym «define-syntaxes»)), (.var «expr»)]), (.letrecv [.mk [«ids», «rhs»]
  (.letv [.mk [«ids»] (.app (.var «define-syntaxes/values-identifiers») [(.var «expr»)])] [(.app (.var «check-duplicate-identifier!») [(.var «expr»), (.quote
  (.sym «define-syntaxes»)), (.var «xform-ids»), (.var «ids»)]), (.app (.var .values) [(.var «ids»), (.app (.var «define-syntaxes/values-expr») [(.var
  «expr»)])])]), .mk [«rhs*»] (.app (.var «expand/expr») [(.var «rhs»), (.var «in-scope»), (.lit .tru)]), .mk [«results»] (.app (.var «eval/values») [(.app
  (.var «syntax->datum») [(.var «rhs*»)]), (.var «env»)]), .mk [] (.letv [] [(.ite (.app (.var «=») [(.app (.var «length») [(.var «ids»)]), (.app (.var
  «length») [(.var «results»)])]) (.app (.var «void») []) (.letv [] [(.app (.var «error») [(.quote (.sym «define-syntaxes»)), (.lit (.const 208)), (.lit (.const
  213)), (.app (.var «length») [(.var «ids»)]), (.lit (.const 210)), (.app (.var «length») [(.var «results»)])])])), (.app (.var .values) [])])] [(.letrecv [.mk
  [«rec»] (.lam ⟨[«ids», «results»], none⟩ [(.ite (.app (.var «null?») [(.var «ids»)]) (.app (.var «loop») [(.app (.var «cdr») [(.var «exprs»)])]) (.letv []
  [(.letrecv [.mk [«id»] (.app (.var «car») [(.var «ids»)]), .mk [«xform»] (.app (.var «car») [(.var «results»)]), .mk [] (.letv [] [(.ite (.app (.var
  «procedure?») [(.var «xform»)]) (.app (.var «void») []) (.letv [] [(.app (.var «raise-argument-error») [(.quote (.sym «define-syntaxes»)), (.lit (.const 22)),
  (.var «xform»)])])), (.app (.var .values) [])]), .mk [«binding»] (.app (.var «cons») [(.var «id»), (.app (.var «list») [(.var «xform»), (.var «null»)])]), .mk
  [«xforms-in-scope»] (.app (.var «cons») [(.var «binding»), (.var «xforms»)]), .mk [] (.letv [] [(.app (.var «set-add!») [(.var «xform-ids»), (.var «id»)]),
  (.app (.var .values) [])]), .mk [] (.letv [] [(.set «xforms» (.letrecv [.mk [«loop»] (.lam ⟨[«xforms», «new-xforms»], none⟩ [(.ite (.app (.var «null?») [(.var
  «xforms»)]) (.var «new-xforms») (.letv [] [(.letrecv [.mk [«xform»] (.app (.var «first») [(.var «xforms»)]), .mk [«id»] (.app (.var «first») [(.var
  «xform»)]), .mk [«value»] (.app (.var «second») [(.var «xform»)]), .mk [«xform*»] (.ite (.app (.var «set-member?») [(.var «xform-ids»), (.var «id»)]) (.app
  (.var «cons») [(.var «id»), (.app (.var «list») [(.var «value»), (.var «xforms-in-scope»)])]) (.var «xform»))] [(.app (.var «loop») [(.app (.var «cdr») [(.var
  «xforms»)]), (.app (.var «cons») [(.var «xform*»), (.var «new-xforms»)])])])]))])] [(.app (.var «loop») [(.var «xforms-in-scope»), (.quote .null)])])), (.app
  (.var .values) [])])] [(.app (.var «rec») [(.app (.var «cdr») [(.var «ids»)]), (.app (.var «cdr») [(.var «results»)])])])]))])] [(.app (.var «rec») [(.var
  «ids»), (.var «results»)])])])]) (.ite (.app (.var «define-values-form?») [(.var «expr»)]) (.letv [] [(.app (.var «check-define-syntaxes/values-form!»)
  [(.quote (.sym .defineValues)), (.var «expr»)]), (.letrecv [.mk [«ids»] (.app (.var «define-syntaxes/values-identifiers») [(.var «expr»)]), .mk [] (.letv []
  [(.app (.var «check-duplicate-identifier!») [(.var «expr»), (.quote (.sym .defineValues)), (.var «define-ids»), (.var «ids»)]), (.app (.var .values) [])]),
  .mk [] (.letv [] [(.app (.var «for-each») [(.lam ⟨[«id»], none⟩ [(.app (.var «set-add!») [(.var «define-ids»), (.var «id»)])]), (.var «ids»)]), (.app (.var
  .values) [])])] [(.app (.var «cons») [(.var «expr»), (.app (.var «loop») [(.app (.var «cdr») [(.var «exprs»)])])])])]) (.ite (.app (.var «begin-form?») [(.var
  «expr»)]) (.letv [] [(.app (.var «check-begin-form!») [(.var «expr»)]), (.letrecv [.mk [«forms»] (.app (.var «cdr») [(.app (.var «syntax->list») [(.var
  «expr»)])])] [(.ite (.app (.var «null?») [(.var «forms»)]) (.app (.var «loop») [(.app (.var «cdr») [(.var «exprs»)])]) (.app (.var «append») [(.app (.var
  «with-scope») [(.var «forms»), (.var «in-scope»)]), (.app (.var «loop») [(.app (.var «cdr») [(.var «exprs»)])])]))])]) (.app (.var «cons») [(.app (.var
  «expand/expr») [(.var «expr»), (.var «in-scope»), (.lit .tru)]), (.app (.var «loop») [(.app (.var «cdr») [(.var «exprs»)])])]))))])])] [(.app (.var
  «with-scope») [(.var «exprs»), (.var «xforms»)])]))])] [(.app (.var «loop») [(.var «exprs»)])])] [(.app (.var .values) [(.var «exprs*»), (.var
  «xforms»)])])]), .mk [«expand/define-values»] (.lam ⟨[«exprs», «xforms»], none⟩ [(.letrecv [.mk [«loop»] (.lam ⟨[«exprs», «exprs*»], none⟩ [(.ite (.app (.var
  «null?») [(.var «exprs»)]) (.app (.var «reverse») [(.var «exprs*»)]) (.ite (.app (.var «define-values-form?») [(.app (.var «car») [(.var «exprs»)])]) (.letv
  [] [(.letrecv [.mk [«form»] (.app (.var «syntax->list») [(.app (.var «car») [(.var «exprs»)])]), .mk [«form*»] (.app (.var «datum->syntax») [(.app (.var
  «list») [(.app (.var «first») [(.var «form»)]), (.app (.var «second») [(.var «form»)]), (.app (.var «expand/expr») [(.app (.var «third») [(.var «form»)]),
  (.var «xforms»), (.lit .tru)])])])] [(.app (.var «loop») [(.app (.var «cdr») [(.var «exprs»)]), (.app (.var «cons») [(.var «form*»), (.var «exprs*»)])])])])
  (.app (.var «loop») [(.app (.var «cdr») [(.var «exprs»)]), (.app (.var «cons») [(.app (.var «car») [(.var «exprs»)]), (.var «exprs*»)])])))])] [(.app (.var
  «loop») [(.var «exprs»), (.var «null»)])])]), .mk [«exprs*», «xforms*»] (.app (.var «expand/non-define-values») [(.var «exprs»), (.var «xforms»)]), .mk
  [«exprs**»] (.app (.var «expand/define-values») [(.var «exprs*»), (.var «xforms*»)]), .mk [] (.letv [] [(.app (.var «check/module!») [(.var «path»), (.var
  «exprs**»), (.var «scope»)]), (.app (.var .values) [])])] [(.app (.var .values) [(.var «exprs**»), (.var «xforms*»)])])])] [(.app (.var «expand/module*»)
  [(.var «exprs»), (.var «xforms»)])])]))

/-- define expand (boot.min:124-124) -/
def boot_124 : E := (.define [«expand»] (.lam ⟨[«expr», «env», «xforms», «scope»], none⟩ [(.letrecv [.mk [«exprs*», «xforms*»] (.app (.var «expand/module»)
  [(.lit .fls), (.app (.var «list») [(.var «expr»)]), (.var «xforms»), (.var «env»), (.var «scope»)])] [(.ite (.app (.var «null?») [(.var «exprs*»)]) (.app
  (.var .values) [(.quoteSyntax (.cons (.sym «void») .null)), (.var «xforms*»)]) (.app (.var .values) [(.app (.var «car») [(.var «exprs*»)]), (.var
  «xforms*»)]))])]))

/-- define writeln (boot.min:125-125) -/
def boot_125 : E := (.define [«writeln»] (.lam ⟨[«o»], none⟩ [(.app (.var «write») [(.var «o»)]), (.app (.var «newline») [])]))

/-- define $module-table (boot.min:126-126) -/
def boot_126 : E := (.define [«$module-table»] (.app (.var «make-hashtable») []))

/-- define $module-envs (boot.min:127-127) -/
def boot_127 : E := (.define [«$module-envs»] (.app (.var «make-hashtable») []))

/-- define $module-internals (boot.min:128-128) -/
def boot_128 : E := (.define [«$module-internals»] (.app (.var «make-hashtable») []))

/-- define $load-module (boot.min:129-129) -/
def boot_129 : E := (.define [«$load-module»] (.lam ⟨[«path», «print-handler», «result-handler»], none⟩ [(.letrecv [.mk [«new-cwd»] (.app (.var «car») [(.app
  (.var «split-path») [(.var «path»)])]), .mk [«scope»] (.app (.var «scope-extend») [(.var «$base-scope»)]), .mk [«exported»] (.quote .null), .mk [«imported»]
  (.quote .null), .mk [«imported-xforms»] (.quote .null), .mk [«imported-modules»] (.quote .null), .mk [«stx-env»] (.lit .fls), .mk [«module-xforms»] (.quote
  .null), .mk [«$read»] (.lam ⟨[], none⟩ [(.letrecv [.mk [«p»] (.app (.var «open-input-file») [(.var «path»)])] [(.letrecv [.mk [«loop»] (.lam ⟨[«exprs»], none⟩
  [(.letrecv [.mk [«datum»] (.app (.var «read») [(.var «p»)])] [(.ite (.app (.var «eof-object?») [(.var «datum»)]) (.letv [] [(.app (.var «close-input-port»)
  [(.var «p»)]), (.app (.var «reverse») [(.var «exprs»)])]) (.app (.var «loop») [(.app (.var «cons») [(.var «datum»), (.var «exprs»)])]))])])] [(.app (.var
  «loop») [(.quote .null)])])])]), .mk [«$import»] (.lam ⟨[«exprs»], none⟩ [(.letrecv [.mk [«loop»] (.lam ⟨[«exprs», «evalable»], none⟩ [(.ite (.app (.var
  «null?») [(.var «exprs»)]) (.app (.var «reverse») [(.var «evalable»)]) (.letv [] [(.letrecv [.mk [«expr»] (.app (.var «syntax-e») [(.app (.var «car») [(.var
  «exprs»)])])] [(.ite (.ite (.app (.var «pair?») [(.var «expr»)]) (.app (.var «eq?») [(.app (.var «syntax-e») [(.app (.var «car») [(.var «expr»)])]), (.quote
  (.sym «import»))]) (.lit .fls)) (.letrecv [.mk [«loop2»] (.lam ⟨[«imports»], none⟩ [(.ite (.app (.var «null?») [(.var «imports»)]) (.app (.var «loop») [(.app
  (.var «cdr») [(.var «exprs»)]), (.var «evalable»)]) (.ite (.app (.var «pair?») [(.var «imports»)]) (.letv [] [(.letrecv [.mk [«maybe-import»] (.app (.var
  «syntax-e») [(.app (.var «car») [(.var «imports»)])]), .mk [«path»] (.app (.var «build-path») [(.var «new-cwd»), (.var «maybe-import»)])] [(.ite (.app (.var
  «string?») [(.var «maybe-import»)]) (.letv [] [(.app (.var «$load-or-import») [(.var «path»), (.var «print-handler»), (.var «result-handler»)]), (.letrecv
  [.mk [«from-module»] (.app (.var «hashtable-ref») [(.var «$module-table»), (.var «path»)]), .mk [] (.letv [] [(.set «imported-modules» (.app (.var «cons»)
  [(.var «path»), (.var «imported-modules»)])), (.app (.var .values) [])]), .mk [] (.letv [] [(.set «imported-xforms» (.app (.var «merge-xforms») [(.var
  «imported-xforms»), (.app (.var «car») [(.var «from-module»)])])), (.app (.var .values) [])]), .mk [] (.letv [] [(.set «imported» (.app (.var «append») [(.app
  (.var «cdr») [(.var «from-module»)]), (.var «imported»)])), (.app (.var .values) [])]), .mk [] (.letv [] [(.app (.var «for-each») [(.lam ⟨[«name»], none⟩
  [(.app (.var «scope-add!») [(.var «scope»), (.var «name»)])]), (.app (.var «map») [(.var «car»), (.app (.var «cdr») [(.var «from-module»)])])]), (.app (.var
  .values) [])])] [(.app (.var «loop2») [(.app (.var «cdr») [(.var «imports»)])])])]) (.app (.var «raise-syntax-error») [(.quote (.sym «import»)), (.lit (.const
  216)), (.app (.var «car») [(.var «exprs»)]), (.app (.var «car») [(.var «imports»)])]))])]) (.app (.var «raise-syntax-error») [(.quote (.sym «import»)), (.lit
  (.const 216)), (.app (.var «car») [(.var «exprs»)])])))])] [(.app (.var «loop2») [(.app (.var «cdr») [(.var «expr»)])])]) (.ite (.ite (.app (.var «pair?»)
  [(.var «expr»)]) (.app (.var «eq?») [(.app (.var «syntax-e») [(.app (.var «car») [(.var «expr»)])]), (.quote (.sym «export»))]) (.lit .fls)) (.letrecv [.mk
  [«loop2»] (.lam ⟨[«exports»], none⟩ [(.ite (.app (.var «null?») [(.var «exports»)]) (.app (.var «loop») [(.app (.var «cdr») [(.var «exprs»)]), (.var
  «evalable»)]) (.ite (.app (.var «pair?») [(.var «exports»)]) (.letv [] [(.letrecv [.mk [«maybe-export»] (.app (.var «syntax-e») [(.app (.var «car») [(.var
  «exports»)])])] [(.ite (.app (.var «symbol?») [(.var «maybe-export»)]) (.letv [] [(.set «exported» (.app (.var «cons») [(.var «maybe-export»), (.var
  «exported»)])), (.app (.var «loop2») [(.app (.var «cdr») [(.var «exports»)])])]) (.ite (.app (.var «pair?») [(.var «maybe-export»)]) (.ite (.app (.var «eq?»)
  [(.app (.var «syntax-e») [(.app (.var «car») [(.var «maybe-export»)])]), (.quote (.sym «all»))]) (.letv [] [(.letrecv [.mk [«module-name»] (.app (.var
  «syntax-e») [(.app (.var «cadr») [(.var «maybe-export»)])]), .mk [«path»] (.app (.var «build-path») [(.var «new-cwd»), (.var «module-name»)])] [(.ite (.ite
  (.app (.var «string?») [(.var «module-name»)]) (.ite (.app (.var «null?») [(.app (.var «cddr») [(.var «maybe-export»)])]) (.app (.var «member») [(.var
  «path»), (.var «imported-modules»)]) (.lit .fls)) (.lit .fls)) (.letv [] [(.letrecv [.mk [«from-module»] (.app (.var «hashtable-ref») [(.var «$module-table»),
  (.var «path»)]), .mk [] (.letv [] [(.set «exported» (.app (.var «append») [(.app (.var «map») [(.var «car»), (.app (.var «car») [(.var «from-module»)])]),
  (.app (.var «map») [(.var «car»), (.app (.var «cdr») [(.var «from-module»)])]), (.var «exported»)])), (.app (.var .values) [])])] [(.app (.var «loop2») [(.app
  (.var «cdr») [(.var «exports»)])])])]) (.app (.var «raise-syntax-error») [(.quote (.sym «export»)), (.lit (.const 217)), (.app (.var «car») [(.var
  «exports»)])]))])]) (.app (.var «raise-syntax-error») [(.quote (.sym «export»)), (.lit (.const 217)), (.app (.var «car») [(.var «exports»)])])) (.app (.var
  «raise-syntax-error») [(.quote (.sym «export»)), (.lit (.const 217)), (.app (.var «car») [(.var «exports»)])])))])]) (.app (.var «raise-syntax-error»)
  [(.quote (.sym «export»)), (.lit (.const 217)), (.app (.var «car») [(.var «exports»)])])))])] [(.app (.var «loop2») [(.app (.var «cdr») [(.var «expr»)])])])
  (.app (.var «loop») [(.app (.var «cdr») [(.var «exprs»)]), (.app (.var «cons») [(.app (.var «car») [(.var «exprs»)]), (.var «evalable»)])])))])]))])] [(.app
  (.var «loop») [(.var «exprs»), (.quote .null)])])]), .mk [«$expand»] (.lam ⟨[«exprs»], none⟩ [(.set «stx-env» (.app (.var «$base-stx-env») [(.app (.var
  «$eval-environment») [(.var «$base-env»), (.var «imported»)])])), (.letrecv [.mk [«exprs*», «xforms*»] (.app (.var «expand/module») [(.var «path»), (.var
  «exprs»), (.var «imported-xforms»), (.var «stx-env»), (.var «scope»)]), .mk [] (.letv [] [(.set «module-xforms» (.var «xforms*»)), (.app (.var .values) [])])]
  [(.var «exprs*»)])]), .mk [«raw-exprs»] (.app (.var «$read») []), .mk [«non-import-exprs»] (.app (.var «$import») [(.var «raw-exprs»)]), .mk
  [«expanded-exprs»] (.app (.var «$expand») [(.var «non-import-exprs»)])] [(.app (.var .values) [(.var «expanded-exprs»), (.var «module-xforms»), (.var
  «imported»), (.var «exported»), (.var «stx-env»), (.var «scope»)])])]))

/-- define $eval-environment (boot.min:130-130) -/
def boot_130 : E := (.define [«$eval-environment»] (.lam ⟨[«env», «imports»], none⟩ [(.letrecv [.mk [«env*»] (.app (.var «copy-environment») [(.var «env»),
  (.lit .fls)])] [(.letrecv [.mk [«loop»] (.lam ⟨[«imports»], none⟩ [(.ite (.app (.var «null?») [(.var «imports»)]) (.var «env*») (.letv [] [(.letrecv [.mk
  [«name»] (.app (.var «caar») [(.var «imports»)]), .mk [«value»] (.app (.var «cdar») [(.var «imports»)]), .mk [] (.letv [] [(.app (.var «environment-set!»)
  [(.var «env*»), (.var «name»), (.var «value»)]), (.app (.var .values) [])])] [(.app (.var «loop») [(.app (.var «cdr») [(.var «imports»)])])])]))])] [(.app
  (.var «loop») [(.var «imports»)])])])]))

/-- define $eval-exprs (boot.min:131-131) -/
def boot_131 : E := (.define [«$eval-exprs»] (.lam ⟨[«exprs», «env», «print-handler»], none⟩ [(.letrecv [.mk [«loop»] (.lam ⟨[«exprs», «result»], none⟩ [(.ite
  (.app (.var «null?») [(.var «exprs»)]) (.var «result») (.letv [] [(.letrecv [.mk [«expr»] (.app (.var «syntax->datum») [(.app (.var «car») [(.var
  «exprs»)])])] [(.app (.var .callWithValues) [(.lam ⟨[], none⟩ [(.app (.var «eval») [(.var «expr»), (.var «env»)])]), (.lam ⟨[], some «results»⟩ [(.letrecv
  [.mk [«loop2»] (.lam ⟨[«results», «prev»], none⟩ [(.ite (.app (.var «null?») [(.var «results»)]) (.app (.var «loop») [(.app (.var «cdr») [(.var «exprs»)]),
  (.var «prev»)]) (.letv [] [(.ite (.app (.var «void?») [(.app (.var «car») [(.var «results»)])]) (.app (.var «void») []) (.letv [] [(.app (.var «writeln»)
  [(.app (.var «car») [(.var «results»)])])])), (.app (.var «loop2») [(.app (.var «cdr») [(.var «results»)]), (.app (.var «car») [(.var «results»)])])]))])]
  [(.app (.var «loop2») [(.var «results»), (.app (.var «void») [])])])])])])]))])] [(.app (.var «loop») [(.var «exprs»), (.app (.var «void») [])])])]))

/-- define $load-or-import-no-check (boot.min:132-132) -/
def boot_132 : E := (.define [«$load-or-import-no-check»] (.lam ⟨[«path», «print-handler», «result-handler»], none⟩ [(.letrecv [.mk [«exprs», «module-xforms»,
  «imports», «exports», «stx-env», «scope»] (.app (.var «$load-module») [(.var «path»), (.var «print-handler»), (.var «result-handler»)]), .mk [«env»] (.app
  (.var «$eval-environment») [(.var «$base-env»), (.var «imports»)]), .mk [«last»] (.app (.var «$eval-exprs») [(.var «exprs»), (.var «env»), (.var
  «print-handler»)]), .mk [«export-values»] (.quote .null), .mk [«export-xforms»] (.quote .null), .mk [] (.letv [] [(.letrecv [.mk [«loop»] (.lam ⟨[«exports»],
  none⟩ [(.ite (.app (.var «null?») [(.var «exports»)]) (.app (.var «void») []) (.letv [] [(.letrecv [.mk [«export»] (.app (.var «car») [(.var «exports»)]), .mk
  [«maybe-xform»] (.app (.var «assoc») [(.var «export»), (.var «module-xforms»)]), .mk [] (.letv [] [(.ite (.var «maybe-xform») (.letv [] [(.letrecv [.mk
  [«xform»] (.app (.var «cdr») [(.var «maybe-xform»)])] [(.set «export-xforms» (.app (.var «cons») [(.app (.var «cons») [(.var «export»), (.var «xform»)]),
  (.var «export-xforms»)]))])]) (.letv [] [(.letrecv [.mk [«value»] (.app (.var «environment-ref») [(.var «env»), (.var «export»), (.lam ⟨[], none⟩ [(.app (.var
  «error») [(.quote (.sym «export»)), (.lit (.const 218)), (.var «export»)])])])] [(.set «export-values» (.app (.var «cons») [(.app (.var «cons») [(.var
  «export»), (.var «value»)]), (.var «export-values»)]))])])), (.app (.var .values) [])])] [(.app (.var «loop») [(.app (.var «cdr») [(.var
  «exports»)])])])]))])] [(.app (.var «loop») [(.var «exports»)])]), (.app (.var .values) [])]), .mk [] (.letv [] [(.app (.var «hashtable-set!») [(.var
  «$module-table»), (.var «path»), (.app (.var «cons») [(.var «export-xforms»), (.var «export-values»)])]), (.app (.var .values) [])]), .mk [] (.letv [] [(.app
  (.var «hashtable-set!») [(.var «$module-envs»), (.var «path»), (.app (.var «cons») [(.var «stx-env»), (.var «env»)])]), (.app (.var .values) [])]), .mk []
  (.letv [] [(.app (.var «hashtable-set!») [(.var «$module-internals»), (.var «path»), (.app (.var «list») [(.var «exprs»), (.var «module-xforms»), (.var
  «imports»), (.var «exports»), (.var «stx-env»), (.var «scope»)])]), (.app (.var .values) [])])] [(.ite (.var «result-handler») (.letv [] [(.app (.var
  «result-handler») [(.var «last»)])]) (.app (.var «void») []))])]))

/-- define $repl (boot.min:133-133) -/
def boot_133 : E := (.define [«$repl»] (.lam ⟨[«env», «stx-env», «xforms», «scope»], none⟩ [(.letrecv [.mk [«loop»] (.lam ⟨[«xforms»], none⟩ [(.app (.var
  «display») [(.lit (.const 219))]), (.letrecv [.mk [«expr»] (.app (.var «read») []), .mk [] (.letv [] [(.ite (.app (.var «eof-object?») [(.var «expr»)]) (.letv
  [] [(.app (.var «exit») [])]) (.app (.var «void») [])), (.app (.var .values) [])]), .mk [«expr*», «xforms*»] (.app (.var «expand») [(.var «expr»), (.var
  «stx-env»), (.var «xforms»), (.var «scope»)]), .mk [] (.letv [] [(.app (.var .callWithValues) [(.lam ⟨[], none⟩ [(.app (.var «eval») [(.app (.var
  «syntax->datum») [(.var «expr*»)]), (.var «env»)])]), (.lam ⟨[], some «results»⟩ [(.app (.var «for-each») [(.lam ⟨[«result»], none⟩ [(.ite (.app (.var
  «void?») [(.var «result»)]) (.app (.var «void») []) (.letv [] [(.app (.var «writeln») [(.var «result»)])]))]), (.var «results»)])])]), (.app (.var .values)
  [])])] [(.app (.var «loop») [(.var «xforms*»)])])])] [(.app (.var «loop») [(.var «xforms»)])])]))

/-- define $load-or-import (boot.min:134-134) -/
def boot_134 : E := (.define [«$load-or-import»] (.lam ⟨[«name», «print-handler», «result-handler»], none⟩ [(.letrecv [.mk [«path»] (.ite (.app (.var
  «is-absolute-path?») [(.var «name»)]) (.var «name») (.app (.var «build-path») [(.app (.var «current-directory») []), (.var «name»)]))] [(.ite (.app (.var
  «hashtable-contains?») [(.var «$module-table»), (.var «path»)]) (.app (.var «void») []) (.letv [] [(.app (.var «$load-or-import-no-check») [(.var «path»),
  (.var «print-handler»), (.var «result-handler»)])]))])]))

/-- define read/module (boot.min:135-135) -/
def boot_135 : E := (.define [«read/module»] (.lam ⟨[«name»], none⟩ [(.letrecv [.mk [«path»] (.ite (.app (.var «is-absolute-path?») [(.var «name»)]) (.var
  «name») (.app (.var «build-path») [(.app (.var «current-directory») []), (.var «name»)]))] [(.app (.var «$load-module») [(.var «path»), (.lit .fls), (.lit
  .fls)])])]))

/-- define import (boot.min:136-136) -/
def boot_136 : E := (.define [«import»] (.lam ⟨[«name»], none⟩ [(.app (.var «$load-or-import») [(.var «name»), (.lam ⟨[«o»], none⟩ [(.app (.var «writeln»)
  [(.var «o»)])]), (.lit .fls)])]))

/-- define load (boot.min:137-137) -/
def boot_137 : E := (.define [«load»] (.lam ⟨[«name»], none⟩ [(.letrecv [.mk [«result»] (.app (.var «$load-or-import») [(.var «name»), (.lit .fls), (.lam
  ⟨[«o»], none⟩ [(.var «o»)])]), .mk [] (.letv [] [(.ite (.app (.var «void?») [(.var «result»)]) (.app (.var «void») []) (.letv [] [(.app (.var «writeln»)
  [(.var «result»)])])), (.app (.var .values) [])])] [(.app (.var «enter!») [(.var «name»)])])]))

/-- define enter! (boot.min:138-138) -/
def boot_138 : E := (.define [«enter!»] (.lam ⟨[«name»], none⟩ [(.letrecv [.mk [«path»] (.ite (.app (.var «is-absolute-path?») [(.var «name»)]) (.var «name»)
  (.app (.var «build-path») [(.app (.var «current-directory») []), (.var «name»)])), .mk [] (.letv [] [(.ite (.app (.var «hashtable-contains?») [(.var
  «$module-envs»), (.var «path»)]) (.app (.var «void») []) (.letv [] [(.app (.var «error») [(.quote (.sym «enter!»)), (.lit (.const 220)), (.var «name»)])])),
  (.app (.var .values) [])]), .mk [«envs»] (.app (.var «hashtable-ref») [(.var «$module-envs»), (.var «path»)]), .mk [«internals»] (.app (.var «hashtable-ref»)
  [(.var «$module-internals»), (.var «path»)]), .mk [«xforms»] (.app (.var «second») [(.var «internals»)]), .mk [«scope»] (.app (.var «sixth») [(.var
  «internals»)])] [(.app (.var «$repl») [(.app (.var «copy-environment») [(.app (.var «car») [(.var «envs»)]), (.lit .fls)]), (.app (.var «copy-environment»)
  [(.app (.var «cdr») [(.var «envs»)])]), (.var «xforms»), (.var «scope»)])])]))

/-- define read (boot.min:139-139) -/
def boot_139 : E := (.define [«read»] (.clam [.mk ⟨[], none⟩ [(.app (.var «read») [(.app (.var «current-input-port») [])])], .mk ⟨[«p»], none⟩ [(.ite (.app
  (.var «input-port?») [(.var «p»)]) (.app (.var «void») []) (.letv [] [(.app (.var «raise-argument-error») [(.quote (.sym «read»)), (.lit (.const 37)), (.var
  «p»)])])), (.letrecv [.mk [«oparen»] (.app (.var «integer->char») [(.lit (.const 221))]), .mk [«cparen»] (.app (.var «integer->char») [(.lit (.const 222))]),
  .mk [«obrack»] (.app (.var «integer->char») [(.lit (.const 223))]), .mk [«cbrack»] (.app (.var «integer->char») [(.lit (.const 224))]), .mk [«obrace»] (.app
  (.var «integer->char») [(.lit (.const 225))]), .mk [«cbrace»] (.app (.var «integer->char») [(.lit (.const 226))]), .mk [«space?»] (.lam ⟨[«c»], none⟩ [(.letv
  [.mk [«or-t»] (.app (.var «eq?») [(.var «c»), (.lit (.const 92))])] [(.ite (.var «or-t») (.var «or-t») (.app (.var «eq?») [(.var «c»), (.lit (.const
  84))]))])]), .mk [«delimeter?»] (.lam ⟨[«c»], none⟩ [(.letv [.mk [«or-t»] (.app (.var «eof-object?») [(.var «c»)])] [(.ite (.var «or-t») (.var «or-t») (.letv
  [.mk [«or-t»] (.app (.var «space?») [(.var «c»)])] [(.ite (.var «or-t») (.var «or-t») (.letv [.mk [«or-t»] (.app (.var «eq?») [(.var «c»), (.var «oparen»)])]
  [(.ite (.var «or-t») (.var «or-t») (.letv [.mk [«or-t»] (.app (.var «eq?») [(.var «c»), (.var «obrack»)])] [(.ite (.var «or-t») (.var «or-t») (.letv [.mk
  [«or-t»] (.app (.var «eq?») [(.var «c»), (.var «obrace»)])] [(.ite (.var «or-t») (.var «or-t») (.letv [.mk [«or-t»] (.app (.var «eq?») [(.var «c»), (.var
  «cparen»)])] [(.ite (.var «or-t») (.var «or-t») (.letv [.mk [«or-t»] (.app (.var «eq?») [(.var «c»), (.var «cbrack»)])] [(.ite (.var «or-t») (.var «or-t»)
  (.letv [.mk [«or-t»] (.app (.var «eq?») [(.var «c»), (.var «cbrace»)])] [(.ite (.var «or-t») (.var «or-t») (.letv [.mk [«or-t»] (.app (.var «eq?») [(.var
  «c»), (.lit (.const 98))])] [(.ite (.var «or-t») (.var «or-t») (.app (.var «eq?») [(.var «c»), (.lit (.const 227))]))]))]))]))]))]))]))]))]))])]), .mk
  [«symbol-char?»] (.lam ⟨[«c»], none⟩ [(.app (.var «not») [(.app (.var «delimeter?») [(.var «c»)])])]), .mk [«digit?»] (.lam ⟨[«c»], none⟩ [(.letrecv [.mk
  [«0-char»] (.app (.var «char->integer») [(.lit (.const 30))]), .mk [«9-char»] (.app (.var «char->integer») [(.lit (.const 228))]), .mk [«i»] (.app (.var
  «char->integer») [(.var «c»)])] [(.app (.var «<=») [(.var «0-char»), (.var «i»), (.var «9-char»)])])]), .mk [«hex-digit?»] (.lam ⟨[«c»], none⟩ [(.letrecv [.mk
  [«i»] (.app (.var «char->integer») [(.var «c»)])] [(.letv [.mk [«or-t»] (.app (.var «<=») [(.app (.var «char->integer») [(.lit (.const 30))]), (.var «i»),
  (.app (.var «char->integer») [(.lit (.const 228))])])] [(.ite (.var «or-t») (.var «or-t») (.letv [.mk [«or-t»] (.app (.var «<=») [(.app (.var «char->integer»)
  [(.lit (.const 27))]), (.var «i»), (.app (.var «char->integer») [(.lit (.const 229))])])] [(.ite (.var «or-t») (.var «or-t») (.app (.var «<=») [(.app (.var
  «char->integer») [(.lit (.const 118))]), (.var «i»), (.app (.var «char->integer») [(.lit (.const 230))])]))]))])])]), .mk [«digit-prefix?»] (.lam ⟨[«c»],
  none⟩ [(.letv [.mk [«or-t»] (.app (.var «digit?») [(.var «c»)])] [(.ite (.var «or-t») (.var «or-t») (.ite (.letv [.mk [«or-t»] (.app (.var «eq?») [(.var «c»),
  (.lit (.const 231))])] [(.ite (.var «or-t») (.var «or-t») (.app (.var «eq?») [(.var «c»), (.lit (.const 232))]))]) (.app (.var «digit?») [(.app (.var
  «peek-char») [(.var «p»)])]) (.lit .fls)))])]), .mk [«assert-not-eof!»] (.lam ⟨[«c»], none⟩ [(.ite (.app (.var «eof-object?») [(.var «c»)]) (.app (.var
  «error») [(.quote (.sym «read»)), (.lit (.const 233))]) (.app (.var «void») []))]), .mk [«assert-matching-parens!»] (.lam ⟨[«open», «close»], none⟩ [(.ite
  (.letv [.mk [«or-t»] (.ite (.app (.var «eq?») [(.var «open»), (.var «oparen»)]) (.app (.var «eq?») [(.var «close»), (.var «cparen»)]) (.lit .fls))] [(.ite
  (.var «or-t») (.var «or-t») (.letv [.mk [«or-t»] (.ite (.app (.var «eq?») [(.var «open»), (.var «obrack»)]) (.app (.var «eq?») [(.var «close»), (.var
  «cbrack»)]) (.lit .fls))] [(.ite (.var «or-t») (.var «or-t») (.ite (.app (.var «eq?») [(.var «open»), (.var «obrace»)]) (.app (.var «eq?») [(.var «close»),
  (.var «cbrace»)]) (.lit .fls)))]))]) (.app (.var «void») []) (.app (.var «errorf») [(.quote (.sym «read»)), (.lit (.const 234)), (.var «close»)]))]), .mk
  [«assert-delimeter!»] (.lam ⟨[«c»], none⟩ [(.ite (.app (.var «not») [(.app (.var «delimeter?») [(.var «c»)])]) (.app (.var «error») [(.quote (.sym «read»)),
  (.lit (.const 235))]) (.app (.var «void») []))]), .mk [«skip-comment!»] (.lam ⟨[], none⟩ [(.letrecv [.mk [«c»] (.app (.var «peek-char») [(.var «p»)])] [(.ite
  (.app (.var «eof-object?») [(.var «c»)]) (.app (.var «void») []) (.ite (.app (.var «eq?») [(.var «c»), (.lit (.const 84))]) (.app (.var «void») []) (.letv []
  [(.app (.var «read-char») [(.var «p»)]), (.app (.var «skip-comment!») [])])))])]), .mk [«skip-block-comment!»] (.lam ⟨[], none⟩ [(.letrecv [.mk [«loop»] (.lam
  ⟨[«block-level»], none⟩ [(.ite (.app (.var «=») [(.var «block-level»), (.lit (.const 19))]) (.app (.var «void») []) (.letv [] [(.letrecv [.mk [«c»] (.app
  (.var «read-char») [(.var «p»)])] [(.ite (.app (.var «eq?») [(.var «c»), (.lit (.const 110))]) (.letv [] [(.letrecv [.mk [«c»] (.app (.var «peek-char») [(.var
  «p»)]), .mk [] (.letv [] [(.app (.var «assert-not-eof!») [(.var «c»)]), (.app (.var .values) [])])] [(.ite (.app (.var «eq?») [(.var «c»), (.lit (.const
  236))]) (.letv [] [(.app (.var «read-char») [(.var «p»)]), (.app (.var «loop») [(.app (.var «+») [(.var «block-level»), (.lit (.const 21))])])]) (.app (.var
  «loop») [(.var «block-level»)]))])]) (.ite (.app (.var «eq?») [(.var «c»), (.lit (.const 236))]) (.letv [] [(.letrecv [.mk [«c»] (.app (.var «peek-char»)
  [(.var «p»)]), .mk [] (.letv [] [(.app (.var «assert-not-eof!») [(.var «c»)]), (.app (.var .values) [])])] [(.ite (.app (.var «eq?») [(.var «c»), (.lit
  (.const 110))]) (.letv [] [(.app (.var «read-char») [(.var «p»)]), (.app (.var «loop») [(.app (.var «-») [(.var «block-level»), (.lit (.const 21))])])]) (.app
  (.var «loop») [(.var «block-level»)]))])]) (.app (.var «loop») [(.var «block-level»)])))])]))])] [(.app (.var «loop») [(.lit (.const 21))])])]), .mk
  [«skip-until-token!»] (.lam ⟨[], none⟩ [(.letrecv [.mk [«c»] (.app (.var «peek-char») [(.var «p»)])] [(.ite (.app (.var «space?») [(.var «c»)]) (.letv []
  [(.app (.var «read-char») [(.var «p»)]), (.app (.var «skip-until-token!») [])]) (.ite (.app (.var «eq?») [(.var «c»), (.lit (.const 227))]) (.letv [] [(.app
  (.var «read-char») [(.var «p»)]), (.app (.var «skip-comment!») []), (.app (.var «skip-until-token!») [])]) (.app (.var «void») [])))])]), .mk
  [«check-expected-string!»] (.lam ⟨[«s»], none⟩ [(.letrecv [.mk [«len»] (.app (.var «string-length») [(.var «s»)])] [(.letrecv [.mk [«loop»] (.lam ⟨[«i»],
  none⟩ [(.ite (.app (.var «<») [(.var «i»), (.var «len»)]) (.letv [] [(.letrecv [.mk [«c»] (.app (.var «read-char») [(.var «p»)])] [(.ite (.app (.var
  «eof-object?») [(.var «c»)]) (.app (.var «error») [(.quote (.sym «read»)), (.lit (.const 233))]) (.ite (.app (.var «eq?») [(.var «c»), (.app (.var
  «string-ref») [(.var «s»), (.var «i»)])]) (.app (.var «loop») [(.app (.var «+») [(.var «i»), (.lit (.const 21))])]) (.app (.var «errorf») [(.quote (.sym
  «read»)), (.lit (.const 237)), (.var «c»)])))])]) (.app (.var «void») []))])] [(.app (.var «loop») [(.lit (.const 19))])])])]), .mk [«read-pair»] (.lam
  ⟨[«open»], none⟩ [(.app (.var «skip-until-token!») []), (.letrecv [.mk [«c»] (.app (.var «peek-char») [(.var «p»)]), .mk [] (.letv [] [(.app (.var
  «assert-not-eof!») [(.var «c»)]), (.app (.var .values) [])])] [(.ite (.letv [.mk [«or-t»] (.app (.var «eq?») [(.var «c»), (.var «cparen»)])] [(.ite (.var
  «or-t») (.var «or-t») (.letv [.mk [«or-t»] (.app (.var «eq?») [(.var «c»), (.var «cbrack»)])] [(.ite (.var «or-t») (.var «or-t») (.app (.var «eq?») [(.var
  «c»), (.var «cbrace»)]))]))]) (.letv [] [(.app (.var «assert-matching-parens!») [(.var «open»), (.var «c»)]), (.app (.var «read-char») [(.var «p»)]), (.quote
  .null)]) (.letv [] [(.letrecv [.mk [«car»] (.app (.var «read-loop») [])] [(.letrecv [.mk [«loop»] (.lam ⟨[«car»], none⟩ [(.app (.var «skip-until-token!») []),
  (.letrecv [.mk [«c»] (.app (.var «peek-char») [(.var «p»)]), .mk [] (.letv [] [(.app (.var «assert-not-eof!») [(.var «c»)]), (.app (.var .values) [])])]
  [(.ite (.app (.var «eq?») [(.var «c»), (.lit (.const 238))]) (.letv [] [(.letrecv [.mk [«maybe-dot»] (.app (.var «read-loop») [])] [(.ite (.app (.var «eq?»)
  [(.app (.var «syntax-e») [(.var «maybe-dot»)]), (.quote (.sym «.»))]) (.letv [] [(.letrecv [.mk [«cdr»] (.app (.var «read-loop») []), .mk [] (.letv [] [(.app
  (.var «skip-until-token!») []), (.app (.var .values) [])]), .mk [«c»] (.app (.var «peek-char») [(.var «p»)]), .mk [] (.letv [] [(.app (.var «assert-not-eof!»)
  [(.var «c»)]), (.app (.var .values) [])])] [(.ite (.letv [.mk [«or-t»] (.app (.var «eq?») [(.var «c»), (.var «cparen»)])] [(.ite (.var «or-t») (.var «or-t»)
  (.letv [.mk [«or-t»] (.app (.var «eq?») [(.var «c»), (.var «cbrack»)])] [(.ite (.var «or-t») (.var «or-t») (.app (.var «eq?») [(.var «c»), (.var
  «cbrace»)]))]))]) (.letv [] [(.app (.var «assert-matching-parens!») [(.var «open»), (.var «c»)]), (.app (.var «read-char») [(.var «p»)]), (.app (.var «cons»)
  [(.var «car»), (.var «cdr»)])]) (.app (.var «error») [(.quote (.sym «read»)), (.lit (.const 239))]))])]) (.app (.var «cons») [(.var «car»), (.app (.var
  «loop») [(.var «maybe-dot»)])]))])]) (.letv [] [(.letrecv [.mk [«cdr»] (.app (.var «read-pair») [(.var «open»)])] [(.app (.var «cons») [(.var «car»), (.var
  «cdr»)])])]))])])] [(.app (.var «loop») [(.var «car»)])])])]))])]), .mk [«read-vector»] (.lam ⟨[], none⟩ [(.letrecv [.mk [«loop»] (.lam ⟨[«elems»], none⟩
  [(.app (.var «skip-until-token!») []), (.letrecv [.mk [«c»] (.app (.var «peek-char») [(.var «p»)])] [(.ite (.app (.var «eq?») [(.var «c»), (.var «cparen»)])
  (.letv [] [(.app (.var «read-char») [(.var «p»)]), (.app (.var «list->vector») [(.app (.var «reverse») [(.var «elems»)])])]) (.app (.var «loop») [(.app (.var
  «cons») [(.app (.var «read-loop») []), (.var «elems»)])]))])])] [(.app (.var «loop») [(.quote .null)])])]), .mk [«read-character»] (.lam ⟨[], none⟩ [(.letrecv
  [.mk [«c»] (.app (.var «read-char») [(.var «p»)]), .mk [] (.letv [] [(.ite (.app (.var «eof-object?») [(.var «c»)]) (.app (.var «error») [(.quote (.sym
  «read»)), (.lit (.const 240))]) (.app (.var «void») [])), (.app (.var .values) [])])] [(.ite (.app (.var «eq?») [(.var «c»), (.lit (.const 119))]) (.letv []
  [(.letrecv [.mk [«cn»] (.app (.var «peek-char») [(.var «p»)])] [(.ite (.app (.var «eq?») [(.var «cn»), (.lit (.const 241))]) (.letv [] [(.app (.var
  «check-expected-string!») [(.lit (.const 242))]), (.lit (.const 92))]) (.letv [] [(.app (.var «assert-delimeter!») [(.app (.var «peek-char») [(.var «p»)])]),
  (.var «c»)]))])]) (.ite (.app (.var «eq?») [(.var «c»), (.lit (.const 243))]) (.letv [] [(.letrecv [.mk [«cn»] (.app (.var «peek-char») [(.var «p»)])] [(.ite
  (.app (.var «eq?») [(.var «cn»), (.lit (.const 244))]) (.letv [] [(.app (.var «check-expected-string!») [(.lit (.const 245))]), (.lit (.const 84))]) (.letv []
  [(.app (.var «assert-delimeter!») [(.app (.var «peek-char») [(.var «p»)])]), (.var «c»)]))])]) (.letv [] [(.app (.var «assert-delimeter!») [(.app (.var
  «peek-char») [(.var «p»)])]), (.var «c»)])))])]), .mk [«read-number»] (.lam ⟨[], none⟩ [(.letrecv [.mk [«0-char»] (.app (.var «char->integer») [(.lit (.const
  30))]), .mk [«chars»] (.quote .null), .mk [«num»] (.lit (.const 19))] [(.letrecv [.mk [«read-digit!»] (.lam ⟨[], none⟩ [(.letrecv [.mk [«c»] (.app (.var
  «peek-char») [(.var «p»)]), .mk [] (.letv [] [(.set «chars» (.app (.var «cons») [(.var «c»), (.var «chars»)])), (.app (.var .values) [])])] [(.ite (.app (.var
  «digit?») [(.var «c»)]) (.letv [] [(.app (.var «read-char») [(.var «p»)]), (.set «num» (.app (.var «+») [(.app (.var «*») [(.lit (.const 169)), (.var
  «num»)]), (.app (.var «-») [(.app (.var «char->integer») [(.var «c»)]), (.var «0-char»)])])), (.app (.var «read-digit!») [])]) (.ite (.app (.var
  «symbol-char?») [(.var «c»)]) (.letv [] [(.app (.var «read-char») [(.var «p»)]), (.app (.var «read-symbol») [(.var «chars»)])]) (.letv [] [(.app (.var
  «assert-delimeter!») [(.app (.var «peek-char») [(.var «p»)])]), (.var «num»)])))])])] [(.app (.var «read-digit!») [])])])]), .mk [«read-hex-number»] (.lam
  ⟨[«c»], none⟩ [(.letrecv [.mk [«chars»] (.quote .null), .mk [«sign»] (.ite (.app (.var «eq?») [(.var «c»), (.lit (.const 231))]) (.letv [] [(.app (.var
  «read-char») [(.var «p»)]), (.set «chars» (.app (.var «cons») [(.var «c»), (.var «chars»)])), (.lit (.const 188))]) (.ite (.app (.var «eq?») [(.var «c»),
  (.lit (.const 232))]) (.letv [] [(.app (.var «read-char») [(.var «p»)]), (.set «chars» (.app (.var «cons») [(.var «c»), (.var «chars»)])), (.lit (.const
  21))]) (.lit (.const 21)))), .mk [«0-char»] (.app (.var «char->integer») [(.lit (.const 30))]), .mk [«a-char»] (.app (.var «char->integer») [(.lit (.const
  27))]), .mk [«A-char»] (.app (.var «char->integer») [(.lit (.const 118))]), .mk [«num»] (.lit (.const 19))] [(.letrecv [.mk [«read-digit!»] (.lam ⟨[], none⟩
  [(.letrecv [.mk [«c»] (.app (.var «peek-char») [(.var «p»)]), .mk [] (.letv [] [(.set «chars» (.app (.var «cons») [(.var «c»), (.var «chars»)])), (.app (.var
  .values) [])])] [(.ite (.app (.var «hex-digit?») [(.var «c»)]) (.letv [] [(.app (.var «read-char») [(.var «p»)]), (.letrecv [.mk [«i»] (.app (.var
  «char->integer») [(.var «c»)]), .mk [] (.letv [] [(.ite (.app (.var «digit?») [(.var «c»)]) (.set «num» (.app (.var «+») [(.app (.var «*») [(.lit (.const
  246)), (.var «num»)]), (.app (.var «-») [(.var «i»), (.var «0-char»)])])) (.ite (.app (.var «>=») [(.var «i»), (.var «a-char»)]) (.set «num» (.app (.var «+»)
  [(.app (.var «*») [(.lit (.const 246)), (.var «num»)]), (.app (.var «+») [(.lit (.const 169)), (.app (.var «-») [(.var «i»), (.var «a-char»)])])])) (.set
  «num» (.app (.var «+») [(.app (.var «*») [(.lit (.const 246)), (.var «num»)]), (.app (.var «+») [(.lit (.const 169)), (.app (.var «-») [(.var «i»), (.var
  «A-char»)])])])))), (.app (.var .values) [])])] [(.app (.var «read-digit!») [])])]) (.ite (.app (.var «symbol-char?») [(.var «c»)]) (.letv [] [(.app (.var
  «read-char») [(.var «p»)]), (.app (.var «read-symbol») [(.var «chars»)])]) (.letv [] [(.app (.var «assert-delimeter!») [(.app (.var «peek-char») [(.var
  «p»)])]), (.app (.var «*») [(.var «num»), (.var «sign»)])])))])])] [(.app (.var «read-digit!») [])])])]), .mk [«read-string»] (.lam ⟨[], none⟩ [(.letrecv [.mk
  [«loop»] (.lam ⟨[«acc»], none⟩ [(.letrecv [.mk [«c»] (.app (.var «peek-char») [(.var «p»)])] [(.ite (.app (.var «eof-object?») [(.var «c»)]) (.letv [] [(.app
  (.var «error») [(.quote (.sym «read»)), (.lit (.const 247))]), (.app (.var «void») [])]) (.ite (.app (.var «eq?») [(.var «c»), (.lit (.const 107))]) (.letv []
  [(.app (.var «read-char») [(.var «p»)]), (.letrecv [.mk [«c»] (.app (.var «peek-char») [(.var «p»)])] [(.ite (.app (.var «eq?») [(.var «c»), (.lit (.const
  243))]) (.letv [] [(.app (.var «read-char») [(.var «p»)]), (.app (.var «loop») [(.app (.var «cons») [(.lit (.const 84)), (.var «acc»)])])]) (.ite (.app (.var
  «eq?») [(.var «c»), (.lit (.const 107))]) (.letv [] [(.app (.var «read-char») [(.var «p»)]), (.app (.var «loop») [(.app (.var «cons») [(.lit (.const 107)),
  (.var «acc»)])])]) (.ite (.app (.var «eq?») [(.var «c»), (.lit (.const 98))]) (.letv [] [(.app (.var «read-char») [(.var «p»)]), (.app (.var «loop») [(.app
  (.var «cons») [(.lit (.const 98)), (.var «acc»)])])]) (.app (.var «errorf») [(.quote (.sym «read»)), (.lit (.const 248)), (.var «c»)]))))])]) (.ite (.app
  (.var «eq?») [(.var «c»), (.lit (.const 98))]) (.letv [] [(.app (.var «read-char») [(.var «p»)]), (.app (.var «reverse») [(.var «acc»)])]) (.letv [] [(.app
  (.var «read-char») [(.var «p»)]), (.app (.var «loop») [(.app (.var «cons») [(.var «c»), (.var «acc»)])])]))))])])] [(.app (.var «loop») [(.quote .null)])])]),
  .mk [«read-symbol»] (.lam ⟨[«acc»], none⟩ [(.letrecv [.mk [«loop»] (.lam ⟨[«acc»], none⟩ [(.letrecv [.mk [«c»] (.app (.var «peek-char») [(.var «p»)])] [(.ite
  (.app (.var «symbol-char?») [(.var «c»)]) (.app (.var «loop») [(.app (.var «cons») [(.app (.var «read-char») [(.var «p»)]), (.var «acc»)])]) (.letv [] [(.app
  (.var «assert-delimeter!») [(.app (.var «peek-char») [(.var «p»)])]), (.app (.var «string->symbol») [(.app (.var «apply») [(.var «string»), (.app (.var
  «reverse») [(.var «acc»)])])])]))])])] [(.app (.var «loop») [(.var «acc»)])])]), .mk [«read-loop»] (.lam ⟨[], none⟩ [(.app (.var «skip-until-token!») []),
  (.letrecv [.mk [«c»] (.app (.var «peek-char») [(.var «p»)])] [(.ite (.app (.var «eof-object?») [(.var «c»)]) (.letv [] [(.app (.var «read-char») [(.var
  «p»)]), (.var «c»)]) (.ite (.app (.var «eq?») [(.var «c»), (.lit (.const 110))]) (.letv [] [(.app (.var «read-char») [(.var «p»)]), (.letrecv [.mk [«c»] (.app
  (.var «peek-char») [(.var «p»)])] [(.ite (.app (.var «eq?») [(.var «c»), (.lit (.const 249))]) (.letv [] [(.app (.var «read-char») [(.var «p»)]), (.app (.var
  «datum->syntax») [(.lit .tru)])]) (.ite (.app (.var «eq?») [(.var «c»), (.lit (.const 229))]) (.letv [] [(.app (.var «read-char») [(.var «p»)]), (.app (.var
  «datum->syntax») [(.lit .fls)])]) (.ite (.app (.var «eq?») [(.var «c»), (.lit (.const 107))]) (.letv [] [(.app (.var «read-char») [(.var «p»)]), (.app (.var
  «datum->syntax») [(.app (.var «read-character») [])])]) (.ite (.app (.var «eq?») [(.var «c»), (.lit (.const 250))]) (.letv [] [(.app (.var «read-char») [(.var
  «p»)]), (.app (.var «datum->syntax») [(.app (.var «list») [(.quote (.sym «syntax»)), (.app (.var «read-loop») [])])])]) (.ite (.app (.var «eq?») [(.var «c»),
  (.var «oparen»)]) (.letv [] [(.app (.var «read-char») [(.var «p»)]), (.app (.var «datum->syntax») [(.app (.var «read-vector») [])])]) (.ite (.app (.var «eq?»)
  [(.var «c»), (.lit (.const 251))]) (.letv [] [(.app (.var «read-char») [(.var «p»)]), (.app (.var «datum->syntax») [(.app (.var «box») [(.app (.var
  «read-loop») [])])])]) (.ite (.app (.var «eq?») [(.var «c»), (.lit (.const 252))]) (.letv [] [(.app (.var «read-char») [(.var «p»)]), (.app (.var
  «datum->syntax») [(.app (.var «read-hex-number») [(.app (.var «peek-char») [(.var «p»)])])])]) (.ite (.app (.var «eq?») [(.var «c»), (.lit (.const 227))])
  (.letv [] [(.app (.var «read-char») [(.var «p»)]), (.app (.var «skip-until-token!») []), (.letrecv [.mk [«c»] (.app (.var «peek-char») [(.var «p»)]), .mk []
  (.letv [] [(.app (.var «assert-not-eof!») [(.var «c»)]), (.app (.var .values) [])]), .mk [] (.letv [] [(.app (.var «read-loop») []), (.app (.var .values)
  [])])] [(.app (.var «read-loop») [])])]) (.ite (.app (.var «eq?») [(.var «c»), (.lit (.const 236))]) (.letv [] [(.app (.var «read-char») [(.var «p»)]), (.app
  (.var «skip-block-comment!») []), (.app (.var «datum->syntax») [(.app (.var «read-loop») [])])]) (.app (.var «errorf») [(.quote (.sym «read»)), (.lit (.const
  253)), (.var «c»)]))))))))))])]) (.ite (.letv [.mk [«or-t»] (.app (.var «eq?») [(.var «c»), (.lit (.const 232))])] [(.ite (.var «or-t») (.var «or-t») (.app
  (.var «eq?») [(.var «c»), (.lit (.const 231))]))]) (.letv [] [(.app (.var «read-char») [(.var «p»)]), (.letrecv [.mk [«n»] (.app (.var «peek-char») [(.var
  «p»)])] [(.ite (.app (.var «digit?») [(.var «n»)]) (.letv [] [(.letrecv [.mk [«pos-num»] (.app (.var «read-number») [])] [(.ite (.app (.var «eq?») [(.var
  «c»), (.lit (.const 231))]) (.app (.var «datum->syntax») [(.app (.var «-») [(.var «pos-num»)])]) (.app (.var «datum->syntax») [(.var «pos-num»)]))])]) (.app
  (.var «datum->syntax») [(.app (.var «read-symbol») [(.app (.var «list») [(.var «c»)])])]))])]) (.ite (.app (.var «digit?») [(.var «c»)]) (.app (.var
  «datum->syntax») [(.app (.var «read-number») [])]) (.ite (.app (.var «eq?») [(.var «c»), (.lit (.const 98))]) (.letv [] [(.app (.var «read-char») [(.var
  «p»)]), (.letrecv [.mk [«str-chars»] (.app (.var «read-string») []), .mk [] (.letv [] [(.app (.var «assert-delimeter!») [(.app (.var «peek-char») [(.var
  «p»)])]), (.app (.var .values) [])])] [(.app (.var «datum->syntax») [(.app (.var «apply») [(.var «string»), (.var «str-chars»)])])])]) (.ite (.letv [.mk
  [«or-t»] (.app (.var «eq?») [(.var «c»), (.var «oparen»)])] [(.ite (.var «or-t») (.var «or-t») (.letv [.mk [«or-t»] (.app (.var «eq?») [(.var «c»), (.var
  «obrack»)])] [(.ite (.var «or-t») (.var «or-t») (.app (.var «eq?») [(.var «c»), (.var «obrace»)]))]))]) (.letv [] [(.app (.var «read-char») [(.var «p»)]),
  (.app (.var «datum->syntax») [(.app (.var «read-pair») [(.var «c»)])])]) (.ite (.app (.var «eq?») [(.var «c»), (.lit (.const 250))]) (.letv [] [(.app (.var
  «read-char») [(.var «p»)]), (.app (.var «datum->syntax») [(.app (.var «list») [(.quote (.sym .quote)), (.app (.var «read-loop») [])])])]) (.ite (.app (.var
  «symbol-char?») [(.var «c»)]) (.app (.var «datum->syntax») [(.app (.var «read-symbol») [(.quote .null)])]) (.app (.var «errorf») [(.quote (.sym «read»)),
  (.lit (.const 254)), (.var «c»)])))))))))])])] [(.app (.var «read-loop») [])])]]))

/-- The expressions of boot.min, in order. -/
def boot : List E := [boot_1, boot_2, boot_3, boot_4, boot_5, boot_6, boot_7, boot_8, boot_9, boot_10, boot_11, boot_12, boot_13, boot_14, boot_15, boot_16,
  boot_17, boot_18, boot_19, boot_20, boot_21, boot_22, boot_23, boot_24, boot_25, boot_26, boot_27, boot_28, boot_29, boot_30, boot_31, boot_32, boot_33,
  boot_34, boot_35, boot_36, boot_37, boot_38, boot_39, boot_40, boot_41, boot_42, boot_43, boot_44, boot_45, boot_46, boot_47, boot_48, boot_49, boot_50,
  boot_51, boot_52, boot_53, boot_54, boot_55, boot_56, boot_57, boot_58, boot_59, boot_60, boot_61, boot_62, boot_63, boot_64, boot_65, boot_66, boot_67,
  boot_68, boot_69, boot_70, boot_71, boot_72, boot_73, boot_74, boot_75, boot_76, boot_77, boot_78, boot_79, boot_80, boot_81, boot_82, boot_83, boot_84,
  boot_85, boot_86, boot_87, boot_88, boot_89, boot_90, boot_91, boot_92, boot_93, boot_94, boot_95, boot_96, boot_97, boot_98, boot_99, boot_100, boot_101,
  boot_102, boot_103, boot_104, boot_105, boot_106, boot_107, boot_108, boot_109, boot_110, boot_111, boot_112, boot_113, boot_114, boot_115, boot_116,
  boot_117, boot_118, boot_119, boot_120, boot_121, boot_122, boot_123, boot_124, boot_125, boot_126, boot_127, boot_128, boot_129, boot_130, boot_131,
  boot_132, boot_133, boot_134, boot_135, boot_136, boot_137, boot_138, boot_139]

end Minim.Lib
