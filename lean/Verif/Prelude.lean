import Verif.Basic

set_option autoImplicit false

/-!
# C102, C103: the argument checks of prelude.min

The procedures of prelude.min check their arguments before they call primitives, and report wrong ones with `raise-argument-error` and `raise-range-error`.  Model of these checks, procedure by procedure:
which primitive is reached, or what is reported.

Simplifications: of values only what the checks see is kept; a procedure that passed its checks is `go` with the procedure it calls next (what happens then is the subject of other properties).  The error
procedures are those installed at the end (prelude.min:2557-2622): they check their own arguments.  A reference to a variable that is defined nowhere in prelude.min is `unbound`.  Hash tables are
records of an opaque type (prelude.min:1461-1463); `hashtable?` does not hold of other records.
-/

namespace Minim.Pre

/-- Values. -/
inductive V where
  | null | tru | fls | void | eof
  | int (n : Int)
  | chr (n : Nat)
  | sym (s : String)
  | str (s : String)
  | pair (a d : V)
  | vec (n id : Nat)
  | box (id : Nat)
  | proc (id : Nat)
  | inPort (s : Bool) (id : Nat)
  | outPort (s : Bool) (id : Nat)
  | rtd (n id : Nat)
  | rcd (opaq : Bool) (id : Nat)
  | table (id : Nat)
  | env (id : Nat)
  | stx (id : Nat)
  | other (id : Nat)
deriving DecidableEq, Repr

/-- What a call does first: go on, report an argument, report an index, report something else, use an undefined variable, or fail for the number of arguments. -/
inductive Out where
  | go (f : String) (args : List V)
  | argument (who contract : String) (v : V)
  | range (who : String) (v : V) (descr : String) (lower upper index : Int)
  | error (who msg : String)
  | unbound (x : String)
  | arity
deriving DecidableEq, Repr

/-! ### predicates -/

/-- `pair?` (minim.h:228) -/
def isPair : V → Bool | .pair _ _ => true | _ => false
/-- `fixnum?` (minim.h:198), which is also `integer?` and `number?` (prelude.min:521-522) -/
def isInt : V → Bool | .int _ => true | _ => false
/-- `non-negative-integer?` (prelude.min:563-564), also written out as `(if (integer? x) (>= x 0) #f)` -/
def isNat : V → Bool | .int n => decide (0 ≤ n) | _ => false
/-- `char?` (minim.h:177) -/
def isChr : V → Bool | .chr _ => true | _ => false
/-- `symbol?` (minim.h:207) -/
def isSym : V → Bool | .sym _ => true | _ => false
/-- `string?` (minim.h:216) -/
def isStr : V → Bool | .str _ => true | _ => false
/-- `procedure?` (minim.h:466) -/
def isProc : V → Bool | .proc _ => true | _ => false
/-- `list?` (list.c:15-19, 78-80) -/
def isList : V → Bool | .null => true | .pair _ d => isList d | _ => false
/-- `vector?` (minim.h:251) -/
def isVec : V → Bool | .vec _ _ => true | _ => false
/-- `box?` (minim.h:261) -/
def isBox : V → Bool | .box _ => true | _ => false
/-- `boolean?` (minim.h:168) -/
def isBool : V → Bool | .tru | .fls => true | _ => false
/-- `input-port?` (minim.h:299) -/
def isIn : V → Bool | .inPort _ _ => true | _ => false
/-- `output-port?` (minim.h:300) -/
def isOut : V → Bool | .outPort _ _ => true | _ => false
/-- `string-port?` (minim.h:301) -/
def isStrPort : V → Bool | .inPort s _ | .outPort s _ => s | _ => false
/-- `record-type-descriptor?` (record.c:33-49) -/
def isRtd : V → Bool | .rtd _ _ => true | _ => false
/-- `$record-value?` (record.c:51-54) -/
def isRcd : V → Bool | .rcd _ _ | .table _ => true | _ => false
/-- `record?` (prelude.min:1380-1383) -/
def isRecord : V → Bool | .rcd o _ => !o | _ => false
/-- `hashtable?` (prelude.min:1469) -/
def isTable : V → Bool | .table _ => true | _ => false
/-- `environment?` (minim.h:427) -/
def isEnv : V → Bool | .env _ => true | _ => false
/-- `syntax?` (minim.h:313) -/
def isStx : V → Bool | .stx _ => true | _ => false
/-- `(if (integer? v) (<= 0 v 255) #f)` (prelude.min:2402) -/
def isByte : V → Bool | .int n => decide (0 ≤ n ∧ n ≤ 255) | _ => false
/-- `$car`, on pairs -/
def V.car : V → V | .pair a _ => a | v => v
/-- `$cdr`, on pairs -/
def V.cdr : V → V | .pair _ d => d | v => v
/-- the elements of a list -/
def elems : V → List V | .pair a d => a :: elems d | _ => []
/-- `$string-length` and `$vector-length`, `$record-type-length` -/
def len : V → Int | .str s => s.length | .vec n _ => n | .rtd n _ => n | _ => 0
/-- the value of a fixnum -/
def num : V → Int | .int n => n | _ => 0

/-- `raise-range-error` (prelude.min:2599-2614) with a symbol and integers. -/
def raiseRange (who : String) (v descr : V) (lower upper index : Int) : Out :=
  match descr with
  | .str d => .range who v d lower upper index
  | _ => .argument "raise-range-error" "string?" descr

/-! ### pairs -/

/-- `car` (prelude.min:37-41). -/
def car (x : V) : Out := if isPair x then .go "$car" [x] else .argument "car" "pair?" x

/-- `cdr` (prelude.min:43-47). -/
def cdr (x : V) : Out := if isPair x then .go "$cdr" [x] else .argument "cdr" "pair?" x

/-- `caar` (prelude.min:49-59). -/
def caar (x : V) : Out :=
  if isPair x then
    let t := V.car x
    if isPair t then
      .go "$car" [t]
    else .argument "caar" "(pairof pair? any)" x
  else .argument "caar" "(pairof pair? any)" x

/-- `cadr` (prelude.min:61-71). -/
def cadr (x : V) : Out :=
  if isPair x then
    let t := V.cdr x
    if isPair t then
      .go "$car" [t]
    else .argument "cadr" "(pairof any pair?)" x
  else .argument "cadr" "(pairof any pair?)" x

/-- `cdar` (prelude.min:73-83). -/
def cdar (x : V) : Out :=
  if isPair x then
    let t := V.car x
    if isPair t then
      .go "$cdr" [t]
    else .argument "cdar" "(pairof pair? any)" x
  else .argument "cdar" "(pairof pair? any)" x

/-- `cddr` (prelude.min:85-95). -/
def cddr (x : V) : Out :=
  if isPair x then
    let t := V.cdr x
    if isPair t then
      .go "$cdr" [t]
    else .argument "cddr" "(pairof any pair?)" x
  else .argument "cddr" "(pairof any pair?)" x

/-- `caaar` (prelude.min:97-110). -/
def caaar (x : V) : Out :=
  if isPair x then
    let t := V.car x
    if isPair t then
      let t := V.car t
      if isPair t then
        .go "$car" [t]
      else .argument "caaar" "(pairof (pairof pair? any) any)" x
    else .argument "caaar" "(pairof (pairof pair? any) any)" x
  else .argument "caaar" "(pairof (pairof pair? any) any)" x

/-- `caadr` (prelude.min:112-125). -/
def caadr (x : V) : Out :=
  if isPair x then
    let t := V.cdr x
    if isPair t then
      let t := V.car t
      if isPair t then
        .go "$car" [t]
      else .argument "caadr" "(pairof any (pairof pair? any))" x
    else .argument "caadr" "(pairof any (pairof pair? any))" x
  else .argument "caadr" "(pairof any (pairof pair? any))" x

/-- `cadar` (prelude.min:127-140). -/
def cadar (x : V) : Out :=
  if isPair x then
    let t := V.car x
    if isPair t then
      let t := V.cdr t
      if isPair t then
        .go "$car" [t]
      else .argument "cadar" "(pairof (pairof any pair?) any)" x
    else .argument "cadar" "(pairof (pairof any pair?) any)" x
  else .argument "cadar" "(pairof (pairof any pair?) any)" x

/-- `caddr` (prelude.min:142-155). -/
def caddr (x : V) : Out :=
  if isPair x then
    let t := V.cdr x
    if isPair t then
      let t := V.cdr t
      if isPair t then
        .go "$car" [t]
      else .argument "caddr" "(pairof (pairof any pair?) any)" x
    else .argument "caddr" "(pairof (pairof any pair?) any)" x
  else .argument "caddr" "(pairof (pairof any pair?) any)" x

/-- `cdaar` (prelude.min:157-170). -/
def cdaar (x : V) : Out :=
  if isPair x then
    let t := V.car x
    if isPair t then
      let t := V.car t
      if isPair t then
        .go "$cdr" [t]
      else .argument "cdaar" "(pairof (pairof pair? any) any)" x
    else .argument "cdaar" "(pairof (pairof pair? any) any)" x
  else .argument "cdaar" "(pairof (pairof pair? any) any)" x

/-- `cdadr` (prelude.min:172-185). -/
def cdadr (x : V) : Out :=
  if isPair x then
    let t := V.cdr x
    if isPair t then
      let t := V.car t
      if isPair t then
        .go "$cdr" [t]
      else .argument "cdadr" "(pairof any (pairof pair? any))" x
    else .argument "cdadr" "(pairof any (pairof pair? any))" x
  else .argument "cdadr" "(pairof any (pairof pair? any))" x

/-- `cddar` (prelude.min:187-200). -/
def cddar (x : V) : Out :=
  if isPair x then
    let t := V.car x
    if isPair t then
      let t := V.cdr t
      if isPair t then
        .go "$cdr" [t]
      else .argument "cddar" "(pairof (pairof any pair?) any)" x
    else .argument "cddar" "(pairof (pairof any pair?) any)" x
  else .argument "cddar" "(pairof (pairof any pair?) any)" x

/-- `cdddr` (prelude.min:202-215). -/
def cdddr (x : V) : Out :=
  if isPair x then
    let t := V.cdr x
    if isPair t then
      let t := V.cdr t
      if isPair t then
        .go "$cdr" [t]
      else .argument "cdddr" "(pairof (pairof any pair?) any)" x
    else .argument "cdddr" "(pairof (pairof any pair?) any)" x
  else .argument "cdddr" "(pairof (pairof any pair?) any)" x

/-- `caaaar` (prelude.min:217-233). -/
def caaaar (x : V) : Out :=
  if isPair x then
    let t := V.car x
    if isPair t then
      let t := V.car t
      if isPair t then
        let t := V.car t
        if isPair t then
          .go "$car" [t]
        else .argument "caaaar" "(pairof (pairof (pairof pair? any) any) any)" x
      else .argument "caaaar" "(pairof (pairof (pairof pair? any) any) any)" x
    else .argument "caaaar" "(pairof (pairof (pairof pair? any) any) any)" x
  else .argument "caaaar" "(pairof (pairof (pairof pair? any) any) any)" x

/-- `caaadr` (prelude.min:235-251). -/
def caaadr (x : V) : Out :=
  if isPair x then
    let t := V.cdr x
    if isPair t then
      let t := V.car t
      if isPair t then
        let t := V.car t
        if isPair t then
          .go "$car" [t]
        else .argument "caaadr" "(pairof any (pairof (pairof pair? any) any))" x
      else .argument "caaadr" "(pairof any (pairof (pairof pair? any) any))" x
    else .argument "caaadr" "(pairof any (pairof (pairof pair? any) any))" x
  else .argument "caaadr" "(pairof any (pairof (pairof pair? any) any))" x

/-- `caadar` (prelude.min:253-269). -/
def caadar (x : V) : Out :=
  if isPair x then
    let t := V.car x
    if isPair t then
      let t := V.cdr t
      if isPair t then
        let t := V.car t
        if isPair t then
          .go "$car" [t]
        else .argument "caadar" "(pairof (pairof any (pairof pair? any)) any)" x
      else .argument "caadar" "(pairof (pairof any (pairof pair? any)) any)" x
    else .argument "caadar" "(pairof (pairof any (pairof pair? any)) any)" x
  else .argument "caadar" "(pairof (pairof any (pairof pair? any)) any)" x

/-- `caaddr` (prelude.min:271-287). -/
def caaddr (x : V) : Out :=
  if isPair x then
    let t := V.cdr x
    if isPair t then
      let t := V.cdr t
      if isPair t then
        let t := V.car t
        if isPair t then
          .go "$car" [t]
        else .argument "caaddr" "(pairof (pairof any (pairof pair? any)) any)" x
      else .argument "caaddr" "(pairof (pairof any (pairof pair? any)) any)" x
    else .argument "caaddr" "(pairof (pairof any (pairof pair? any)) any)" x
  else .argument "caaddr" "(pairof (pairof any (pairof pair? any)) any)" x

/-- `cadaar` (prelude.min:289-305). -/
def cadaar (x : V) : Out :=
  if isPair x then
    let t := V.car x
    if isPair t then
      let t := V.car t
      if isPair t then
        let t := V.cdr t
        if isPair t then
          .go "$car" [t]
        else .argument "cadaar" "(pairof (pairof (pairof any pair?) any) any)" x
      else .argument "cadaar" "(pairof (pairof (pairof any pair?) any) any)" x
    else .argument "cadaar" "(pairof (pairof (pairof any pair?) any) any)" x
  else .argument "cadaar" "(pairof (pairof (pairof any pair?) any) any)" x

/-- `cadadr` (prelude.min:307-323). -/
def cadadr (x : V) : Out :=
  if isPair x then
    let t := V.cdr x
    if isPair t then
      let t := V.car t
      if isPair t then
        let t := V.cdr t
        if isPair t then
          .go "$car" [t]
        else .argument "cadadr" "(pairof any (pairof (pairof any pair?) any))" x
      else .argument "cadadr" "(pairof any (pairof (pairof any pair?) any))" x
    else .argument "cadadr" "(pairof any (pairof (pairof any pair?) any))" x
  else .argument "cadadr" "(pairof any (pairof (pairof any pair?) any))" x

/-- `caddar` (prelude.min:325-341). -/
def caddar (x : V) : Out :=
  if isPair x then
    let t := V.car x
    if isPair t then
      let t := V.cdr t
      if isPair t then
        let t := V.cdr t
        if isPair t then
          .go "$car" [t]
        else .argument "caddar" "(pairof (pairof any (pairof any pair?)) any)" x
      else .argument "caddar" "(pairof (pairof any (pairof any pair?)) any)" x
    else .argument "caddar" "(pairof (pairof any (pairof any pair?)) any)" x
  else .argument "caddar" "(pairof (pairof any (pairof any pair?)) any)" x

/-- `cadddr` (prelude.min:343-359). -/
def cadddr (x : V) : Out :=
  if isPair x then
    let t := V.cdr x
    if isPair t then
      let t := V.cdr t
      if isPair t then
        let t := V.cdr t
        if isPair t then
          .go "$car" [t]
        else .argument "cadddr" "(pairof (pairof any (pairof any pair?) any)" x
      else .argument "cadddr" "(pairof (pairof any (pairof any pair?) any)" x
    else .argument "cadddr" "(pairof (pairof any (pairof any pair?) any)" x
  else .argument "cadddr" "(pairof (pairof any (pairof any pair?) any)" x

/-- `cdaaar` (prelude.min:361-377). -/
def cdaaar (x : V) : Out :=
  if isPair x then
    let t := V.car x
    if isPair t then
      let t := V.car t
      if isPair t then
        let t := V.car t
        if isPair t then
          .go "$cdr" [t]
        else .argument "cdaaar" "(pairof (pairof (pairof pair? any) any) any)" x
      else .argument "cdaaar" "(pairof (pairof (pairof pair? any) any) any)" x
    else .argument "cdaaar" "(pairof (pairof (pairof pair? any) any) any)" x
  else .argument "cdaaar" "(pairof (pairof (pairof pair? any) any) any)" x

/-- `cdaadr` (prelude.min:379-395). -/
def cdaadr (x : V) : Out :=
  if isPair x then
    let t := V.cdr x
    if isPair t then
      let t := V.car t
      if isPair t then
        let t := V.car t
        if isPair t then
          .go "$cdr" [t]
        else .argument "cdaadr" "(pairof any (pairof (pairof pair? any) any))" x
      else .argument "cdaadr" "(pairof any (pairof (pairof pair? any) any))" x
    else .argument "cdaadr" "(pairof any (pairof (pairof pair? any) any))" x
  else .argument "cdaadr" "(pairof any (pairof (pairof pair? any) any))" x

/-- `cdadar` (prelude.min:397-413). -/
def cdadar (x : V) : Out :=
  if isPair x then
    let t := V.car x
    if isPair t then
      let t := V.cdr t
      if isPair t then
        let t := V.car t
        if isPair t then
          .go "$cdr" [t]
        else .argument "cdadar" "(pairof (pairof any (pairof pair? any)) any)" x
      else .argument "cdadar" "(pairof (pairof any (pairof pair? any)) any)" x
    else .argument "cdadar" "(pairof (pairof any (pairof pair? any)) any)" x
  else .argument "cdadar" "(pairof (pairof any (pairof pair? any)) any)" x

/-- `cdaddr` (prelude.min:415-431). -/
def cdaddr (x : V) : Out :=
  if isPair x then
    let t := V.cdr x
    if isPair t then
      let t := V.cdr t
      if isPair t then
        let t := V.car t
        if isPair t then
          .go "$cdr" [t]
        else .argument "cdaddr" "(pairof (pairof any (pairof pair? any)) any)" x
      else .argument "cdaddr" "(pairof (pairof any (pairof pair? any)) any)" x
    else .argument "cdaddr" "(pairof (pairof any (pairof pair? any)) any)" x
  else .argument "cdaddr" "(pairof (pairof any (pairof pair? any)) any)" x

/-- `cddaar` (prelude.min:433-449). -/
def cddaar (x : V) : Out :=
  if isPair x then
    let t := V.car x
    if isPair t then
      let t := V.car t
      if isPair t then
        let t := V.cdr t
        if isPair t then
          .go "$cdr" [t]
        else .argument "cddaar" "(pairof (pairof (pairof any pair?) any) any)" x
      else .argument "cddaar" "(pairof (pairof (pairof any pair?) any) any)" x
    else .argument "cddaar" "(pairof (pairof (pairof any pair?) any) any)" x
  else .argument "cddaar" "(pairof (pairof (pairof any pair?) any) any)" x

/-- `cddadr` (prelude.min:451-467). -/
def cddadr (x : V) : Out :=
  if isPair x then
    let t := V.cdr x
    if isPair t then
      let t := V.car t
      if isPair t then
        let t := V.cdr t
        if isPair t then
          .go "$cdr" [t]
        else .argument "cddadr" "(pairof any (pairof (pairof any pair?) any))" x
      else .argument "cddadr" "(pairof any (pairof (pairof any pair?) any))" x
    else .argument "cddadr" "(pairof any (pairof (pairof any pair?) any))" x
  else .argument "cddadr" "(pairof any (pairof (pairof any pair?) any))" x

/-- `cdddar` (prelude.min:469-485). -/
def cdddar (x : V) : Out :=
  if isPair x then
    let t := V.car x
    if isPair t then
      let t := V.cdr t
      if isPair t then
        let t := V.cdr t
        if isPair t then
          .go "$cdr" [t]
        else .argument "cdddar" "(pairof (pairof any (pairof any pair?)) any)" x
      else .argument "cdddar" "(pairof (pairof any (pairof any pair?)) any)" x
    else .argument "cdddar" "(pairof (pairof any (pairof any pair?)) any)" x
  else .argument "cdddar" "(pairof (pairof any (pairof any pair?)) any)" x

/-- `cddddr` (prelude.min:487-503). -/
def cddddr (x : V) : Out :=
  if isPair x then
    let t := V.cdr x
    if isPair t then
      let t := V.cdr t
      if isPair t then
        let t := V.cdr t
        if isPair t then
          .go "$cdr" [t]
        else .argument "cddddr" "(pairof (pairof any (pairof any pair?) any)" x
      else .argument "cddddr" "(pairof (pairof any (pairof any pair?) any)" x
    else .argument "cddddr" "(pairof (pairof any (pairof any pair?) any)" x
  else .argument "cddddr" "(pairof (pairof any (pairof any pair?) any)" x


/-! ### procedures with a fixed number of arguments -/

/-- `set-car!` (prelude.min:505-509). -/
def «set-car!» (p x : V) : Out :=
  if isPair p then .go "$set-car!" [p, x]
  else .argument "set-car!" "pair?" p

/-- `set-cdr!` (prelude.min:511-515). -/
def «set-cdr!» (p x : V) : Out :=
  if isPair p then .go "$set-cdr!" [p, x]
  else .argument "set-cdr!" "pair?" p

/-- `add1` (prelude.min:696-700). -/
def add1 (x : V) : Out :=
  if isInt x then .go "$fx2+" [x, .int 1]
  else .argument "add1" "number?" x

/-- `sub1` (prelude.min:702-706). -/
def sub1 (x : V) : Out :=
  if isInt x then .go "$fx2-" [x, .int 1]
  else .argument "sub1" "number?" x

/-- `remainder` (prelude.min:708-714). -/
def remainder (x y : V) : Out :=
  if isInt x then 
    (if isInt y then .go "$fxremainder" [x, y]
    else .argument "remainder" "number?" y)
  else .argument "remainder" "number?" x

/-- `modulo` (prelude.min:716-722). -/
def modulo (x y : V) : Out :=
  if isInt x then 
    (if isInt y then .go "$fxmodulo" [x, y]
    else .argument "modulo" "number?" y)
  else .argument "modulo" "number?" x

/-- `procedure-arity` (prelude.min:754-758). -/
def «procedure-arity» (p : V) : Out :=
  if isProc p then .go "$procedure-arity" [p]
  else .argument "procedure-arity" "procedure?" p

/-- `procedure-name` (prelude.min:760-764). -/
def «procedure-name» (p : V) : Out :=
  if isProc p then .go "$procedure-name" [p]
  else .argument "procedure-name" "procedure?" p

/-- `procedure-rename` (prelude.min:766-772). -/
def «procedure-rename» (p id : V) : Out :=
  if isProc p then 
    (if isSym id then .go "$procedure-rename" [p, id]
    else .argument "procedure-rename" "symbol?" id)
  else .argument "procedure-rename" "procedure?" p

/-- `char->integer` (prelude.min:777-781). -/
def «char->integer» (x : V) : Out :=
  if isChr x then .go "$char->integer" [x]
  else .argument "char->integer" "char?" x

/-- `integer->char` (prelude.min:783-787). -/
def «integer->char» (x : V) : Out :=
  if isInt x then .go "$integer->char" [x]
  else .argument "integer->char" "integer?" x

/-- `string-length` (prelude.min:824-828). -/
def «string-length» (s : V) : Out :=
  if isStr s then .go "$string-length" [s]
  else .argument "string-length" "string?" s

/-- `number->string` (prelude.min:888-892). -/
def «number->string» (n : V) : Out :=
  if isInt n then .go "$number->string" [n]
  else .argument "number->string" "number?" n

/-- `string->number` (prelude.min:894-898). -/
def «string->number» (s : V) : Out :=
  if isStr s then .go "$string->number" [s]
  else .argument "string->number" "string?" s

/-- `symbol->string` (prelude.min:900-904). -/
def «symbol->string» (s : V) : Out :=
  if isSym s then .go "$symbol->string" [s]
  else .argument "symbol->string" "symbol?" s

/-- `string->symbol` (prelude.min:906-910). -/
def «string->symbol» (s : V) : Out :=
  if isStr s then .go "$string->symbol" [s]
  else .argument "string->symbol" "string?" s

/-- `string->list` (prelude.min:912-916). -/
def «string->list» (s : V) : Out :=
  if isStr s then .go "$string->list" [s]
  else .argument "string->list" "string?" s

/-- `make-list` (prelude.min:923-927). -/
def «make-list» (l x : V) : Out :=
  if isNat l then .go "$make-list" [l, x]
  else .argument "length" "non-negative-integer?" l

/-- `length` (prelude.min:929-933). -/
def length (xs : V) : Out :=
  if isList xs then .go "$length" [xs]
  else .argument "length" "list?" xs

/-- `reverse` (prelude.min:935-939). -/
def reverse (xs : V) : Out :=
  if isList xs then .go "$reverse" [xs]
  else .argument "reverse" "list?" xs

/-- `iota` (prelude.min:1075-1086). -/
def iota (n : V) : Out :=
  if isNat n then .go "loop" [n]
  else .argument "iota" "non-negative-fixnum?" n

/-- `enumerate` (prelude.min:1088-1099). -/
def enumerate (xs : V) : Out :=
  if isList xs then .go "loop" [xs]
  else .argument "enumerate" "list?" xs

/-- `vector-length` (prelude.min:1121-1125). -/
def «vector-length» (v : V) : Out :=
  if isVec v then .go "$vector-length" [v]
  else .argument "vector-length" "vector?" v

/-- `vector-fill!` (prelude.min:1147-1151). -/
def «vector-fill!» (v x : V) : Out :=
  if isVec v then .go "$vector-fill!" [v, x]
  else .argument "vector->list" "vector?" v

/-- `list->vector` (prelude.min:1153-1157). -/
def «list->vector» (xs : V) : Out :=
  if isList xs then .go "$list->vector" [xs]
  else .argument "list->vector" "list?" xs

/-- `vector->list` (prelude.min:1159-1163). -/
def «vector->list» (v : V) : Out :=
  if isVec v then .go "$vector->list" [v]
  else .argument "vector->list" "vector?" v

/-- `unbox` (prelude.min:1168-1172). -/
def unbox (x : V) : Out :=
  if isBox x then .go "$unbox" [x]
  else .argument "unbox" "box?" x

/-- `set-box!` (prelude.min:1174-1178). -/
def «set-box!» (x v : V) : Out :=
  if isBox x then .go "$set-box!" [x, v]
  else .argument "set-box!" "box?" x

/-- `open-input-file` (prelude.min:1183-1187). -/
def «open-input-file» (name : V) : Out :=
  if isStr name then .go "$open-input-file" [name]
  else .argument "open-input-file" "string?" name

/-- `open-output-file` (prelude.min:1189-1193). -/
def «open-output-file» (name : V) : Out :=
  if isStr name then .go "$open-output-file" [name]
  else .argument "open-output-file" "string?" name

/-- `close-input-port` (prelude.min:1201-1205). -/
def «close-input-port» (port : V) : Out :=
  if isIn port then .go "$close-input-port" [port]
  else .argument "close-input-file" "input-port?" port

/-- `close-output-port` (prelude.min:1207-1211). -/
def «close-output-port» (port : V) : Out :=
  if isOut port then .go "$close-output-port" [port]
  else .argument "close-output-file" "output-port?" port

/-- `record-type-name` (prelude.min:1323-1341). -/
def «record-type-name» (t : V) : Out :=
  if isRtd t then .go "$record-type-name" [t]
  else .argument "record-type-name" "record-type-name?" t

/-- `record-type-parent` (prelude.min:1323-1341). -/
def «record-type-parent» (t : V) : Out :=
  if isRtd t then .go "$record-type-parent" [t]
  else .argument "record-type-parent" "record-type-name?" t

/-- `record-type-uid` (prelude.min:1323-1341). -/
def «record-type-uid» (t : V) : Out :=
  if isRtd t then .go "$record-type-uid" [t]
  else .argument "record-type-uid" "record-type-name?" t

/-- `record-type-sealed?` (prelude.min:1323-1341). -/
def «record-type-sealed?» (t : V) : Out :=
  if isRtd t then .go "$record-type-sealed?" [t]
  else .argument "record-type-sealed?" "record-type-name?" t

/-- `record-type-opaque?` (prelude.min:1323-1341). -/
def «record-type-opaque?» (t : V) : Out :=
  if isRtd t then .go "$record-type-opaque?" [t]
  else .argument "record-type-opaque?" "record-type-name?" t

/-- `record-type-field-names` (prelude.min:1323-1341). -/
def «record-type-field-names» (t : V) : Out :=
  if isRtd t then .go "$record-type-field-names" [t]
  else .argument "record-type-field-names" "record-type-name?" t

/-- `record-rtd` (prelude.min:1384-1387). -/
def «record-rtd» (r : V) : Out :=
  if isRecord r then .go "$record-rtd" [r]
  else .argument "record-rtd" "record?" r

/-- `record-constructor` (prelude.min:1388-1400). -/
def «record-constructor» (t : V) : Out :=
  if isRtd t then .go "record-size" [t]
  else .argument "record-constructor" "record-type-descriptor?" t

/-- `record-predicate` (prelude.min:1401-1407). -/
def «record-predicate» (t : V) : Out :=
  if isRtd t then .go "lambda" [t]
  else .argument "record-predicate" "record-type-descriptor?" t

/-- `hashtable-copy` (prelude.min:1454-1479). -/
def «hashtable-copy» (t : V) : Out :=
  if isTable t then .go "$hashtable-copy" [t]
  else .argument "hashtable-copy" "hashtable?" t

/-- `hashtable-size` (prelude.min:1485-1489). -/
def «hashtable-size» (t : V) : Out :=
  if isTable t then .go "$hashtable-size" [t]
  else .argument "hashtable-set!" "hashtable?" t

/-- `hashtable-entries` (prelude.min:1499-1512). -/
def «hashtable-entries» (t : V) : Out :=
  if isTable t then .go "loop" [t]
  else .argument "hashtable-entries" "hashtable?" t

/-- `hashtable-keys` (prelude.min:1514-1525). -/
def «hashtable-keys» (t : V) : Out :=
  if isTable t then .go "loop" [t]
  else .argument "hashtable-entries" "hashtable?" t

/-- `hashtable-vals` (prelude.min:1527-1538). -/
def «hashtable-vals» (t : V) : Out :=
  if isTable t then .go "loop" [t]
  else .argument "hashtable-entries" "hashtable?" t

/-- `hashtable-contains?` (prelude.min:1672-1675). -/
def «hashtable-contains?» (t k : V) : Out :=
  if isTable t then .go "1/hashtable-contains?" [t, k]
  else .argument "hashtable-set!" "hashtable?" t

/-- `hashtable-set!` (prelude.min:1687-1690). -/
def «hashtable-set!» (t k v : V) : Out :=
  if isTable t then .go "1/hashtable-set!" [t, k, v]
  else .argument "hashtable-set!" "hashtable?" t

/-- `hashtable-delete!` (prelude.min:1707-1710). -/
def «hashtable-delete!» (t k : V) : Out :=
  if isTable t then .go "1/hashtable-cell-delete!" [t, k]
  else .argument "hashtable-set!" "hashtable?" t

/-- `hashtable-clear!` (prelude.min:1712-1716). -/
def «hashtable-clear!» (t : V) : Out :=
  if isTable t then .go "$hashtable-clear!" [t]
  else .argument "hashtable-clear!" "hashtable?" t

/-- `record-equal-procedure` (prelude.min:1792-1805). -/
def «record-equal-procedure» (a b : V) : Out :=
  if isRcd a then 
    (if isRcd b then .go "record-type-equal-procedure" [a]
    else .argument "record-equal-procedure" "record?" b)
  else .argument "record-equal-procedure" "record?" a

/-- `record-hash-procedure` (prelude.min:1807-1812). -/
def «record-hash-procedure» (a : V) : Out :=
  if isRcd a then .go "record-type-hash-procedure" [a]
  else .argument "record-equal-procedure" "record?" a

/-- `put-char` (prelude.min:1957-1963). -/
def «put-char» (p c : V) : Out :=
  if isOut p then 
    (if isChr c then .go "$put-char" [p, c]
    else .argument "put-char" "char?" c)
  else .argument "put-char" "output-port?" c

/-- `flush-output-port` (prelude.min:2009-2013). -/
def «flush-output-port» (p : V) : Out :=
  if isOut p then .go "$flush-output-port" [p]
  else .argument "flush-output-port" "output-port?" p

/-- `put-datum` (prelude.min:2149-2150). -/
def «put-datum» (p x : V) : Out :=
  if isOut p then .go "wr" [x, p]
  else .argument "put-datum" "output-port?" p

/-- `fasl-read` (prelude.min:2265-2269). -/
def «fasl-read» (p : V) : Out :=
  if isIn p then .go "$fasl-read" [p]
  else .argument "fasl-read" "input-port?" p

/-- `fasl-write` (prelude.min:2271-2275). -/
def «fasl-write» (x p : V) : Out :=
  if isOut p then .go "$fasl-write" [x, p]
  else .argument "fasl-write" "output-port?" p

/-- `syntax-e` (prelude.min:2280-2284). -/
def «syntax-e» (s : V) : Out :=
  if isStx s then .go "$syntax-e" [s]
  else .argument "syntax-e" "syntax?" s

/-- `syntax-loc` (prelude.min:2286-2290). -/
def «syntax-loc» (s : V) : Out :=
  if isStx s then .go "$syntax-loc" [s]
  else .argument "syntax-loc" "syntax?" s

/-- `syntax->datum` (prelude.min:2292-2296). -/
def «syntax->datum» (s : V) : Out :=
  if isStx s then .go "$syntax->datum" [s]
  else .argument "syntax->datum" "syntax?" s

/-- `syntax->list` (prelude.min:2298-2302). -/
def «syntax->list» (s : V) : Out :=
  if isStx s then .go "$syntax->list" [s]
  else .argument "syntax->list" "syntax?" s

/-- `make-pattern-variable` (prelude.min:2307-2325). -/
def «make-pattern-variable» (x d : V) : Out :=
  if isNat d then .go "$make-pvar" [x, d]
  else .argument "make-pattern-variable" "non-negative-integer?" d

/-- `environment-symbols` (prelude.min:2345-2349). -/
def «environment-symbols» (e : V) : Out :=
  if isEnv e then .go "$environment-symbols" [e]
  else .argument "environment-symbols" "environment?" e

/-- `environment-set!` (prelude.min:2373-2379). -/
def «environment-set!» (e k v : V) : Out :=
  if isEnv e then 
    (if isSym k then .go "$environment-set!" [e, k, v]
    else .argument "environment-set!" "symbol?" k)
  else .argument "environment-set!" "environment?" e

/-- `load` (prelude.min:2392-2396). -/
def load (f : V) : Out :=
  if isStr f then .go "$load" [f]
  else .argument "load" "string?" f

/-! ### procedures with optional arguments -/

/-- `read` (prelude.min:1939-1952). -/
def read : List V → Out
  | [] =>
    .go "$read" []
  | [p] =>
    if isIn p then .go "$read" [p]
    else .argument "read" "input-port?" p
  | _ => .arity

/-- `read-char` (prelude.min:1939-1952). -/
def «read-char» : List V → Out
  | [] =>
    .go "$read-char" []
  | [p] =>
    if isIn p then .go "$read-char" [p]
    else .argument "read-char" "input-port?" p
  | _ => .arity

/-- `peek-char` (prelude.min:1939-1952). -/
def «peek-char» : List V → Out
  | [] =>
    .go "$peek-char" []
  | [p] =>
    if isIn p then .go "$peek-char" [p]
    else .argument "peek-char" "input-port?" p
  | _ => .arity

/-- `char-ready?` (prelude.min:1939-1952). -/
def «char-ready?» : List V → Out
  | [] =>
    .go "$char-ready?" []
  | [p] =>
    if isIn p then .go "$char-ready?" [p]
    else .argument "char-ready?" "input-port?" p
  | _ => .arity

/-- `make-vector` (prelude.min:1107-1119). -/
def «make-vector» : List V → Out
  | [n] =>
    if isNat n then .go "$make-vector" [n, .int 0]
    else .argument "make-vector" "non-negative-integer?" n
  | [n, x] =>
    if isNat n then .go "$make-vector" [n, x]
    else .argument "make-vector" "non-negative-integer?" n
  | _ => .arity

/-- `write-char` (prelude.min:2015-2026). -/
def «write-char» : List V → Out
  | [c] =>
    if isChr c then .go "$write-char" [c]
    else .argument "write-char" "char?" c
  | [c, p] =>
    if isChr c then 
      (if isOut p then .go "$write-char" [c, p]
      else .argument "write-char" "output-port?" p)
    else .argument "write-char" "char?" c
  | _ => .arity

/-- `write` (prelude.min:2152-2154). -/
def write : List V → Out
  | [x] =>
    .go "wr" [x]
  | [x, p] =>
    if isOut p then .go "wr" [x, p]
    else .argument "write" "output-port?" p
  | _ => .arity

/-- `display` (prelude.min:2156-2158). -/
def display : List V → Out
  | [x] =>
    .go "wr" [x]
  | [x, p] =>
    if isOut p then .go "wr" [x, p]
    else .argument "display" "output-port?" p
  | _ => .arity

/-- `newline` (prelude.min:2160-2167). -/
def newline : List V → Out
  | [] =>
    .go "$newline" []
  | [p] =>
    if isOut p then .go "$newline" [p]
    else .argument "newline" "output port?" p
  | _ => .arity

/-- `current-environment` (prelude.min:2381-2387). -/
def «current-environment» : List V → Out
  | [] =>
    .go "$current-environment" []
  | [e] =>
    if isEnv e then .go "$current-environment-set!" [e]
    else .argument "current-environment" "environment?" e
  | _ => .arity

/-- `current-directory` (prelude.min:2407-2414). -/
def «current-directory» : List V → Out
  | [] =>
    .go "$current-directory" []
  | [p] =>
    if isStr p then .go "$current-directory-set!" [p]
    else .argument "current-directory" "string?" p
  | _ => .arity

/-- `current-error-handler` (prelude.min:2420-2427). -/
def «current-error-handler» : List V → Out
  | [] =>
    .go "$current-error-handler" []
  | [p] =>
    if isProc p then .go "$current-error-handler-set!" [p]
    else .argument "current-error-handler" "procedure?" p
  | _ => .arity

/-- `exit` (prelude.min:2398-2404). -/
def exit : List V → Out
  | [] =>
    .go "$exit" [.int 0]
  | [v] =>
    if isByte v then .go "$exit" [v]
    else .argument "exit" "an integer between 0 and 255" v
  | _ => .arity

/-- `default-record-equal-procedure` (prelude.min:1722-1730). -/
def «default-record-equal-procedure» : List V → Out
  | [] =>
    .go "$default-record-equal-procedure" []
  | [p] =>
    if isProc p then .go "$default-record-equal-procedure" [p]
    else .argument "default-record-equal-procedure" "procedure?" p
  | _ => .arity

/-- `default-record-hash-procedure` (prelude.min:1733-1741). -/
def «default-record-hash-procedure» : List V → Out
  | [] =>
    .go "$default-record-equal-procedure" []
  | [p] =>
    if isProc p then .go "$default-record-hash-procedure" [p]
    else .argument "default-record-hash-procedure" "procedure?" p
  | _ => .arity

/-- `hashtable-ref` (prelude.min:1677-1685). -/
def «hashtable-ref» : List V → Out
  | [t, k] =>
    if isTable t then .go "1/hashtable-ref" [t, k]
    else .argument "hashtable-ref" "hashtable?" t
  | [t, k, d] =>
    if isTable t then .go "1/hashtable-ref" [t, k, d]
    else .argument "hashtable-ref" "hashtable?" t
  | _ => .arity

/-- `hashtable-update!` (prelude.min:1692-1705). -/
def «hashtable-update!» : List V → Out
  | [t, k, u] =>
    if isTable t then 
      (if isProc u then .go "1/hashtable-update!" [t, k, u]
      else .argument "hashtable-update!" "procedure?" u)
    else .argument "hashtable-update!" "hashtable?" t
  | [t, k, u, d] =>
    if isTable t then 
      (if isProc u then .go "1/hashtable-update!" [t, k, u, d]
      else .argument "hashtable-update!" "procedure?" u)
    else .argument "hashtable-update!" "hashtable?" t
  | _ => .arity

/-! ### other procedures -/

/-- The loop of comparisons with three and more arguments (prelude.min:543-552). -/
def compareLoop (who : String) (cmp : Int → Int → Bool) : V → List V → Out
  | _, [] => .go "#t" []
  | x, y :: ys => if isInt y then (if cmp (num x) (num y) then compareLoop who cmp y ys else .go "#f" []) else .argument who "number?" y

/-- `=`, `>`, `<`, `>=`, `<=` (prelude.min:524-558). -/
def compare (who : String) (cmp : Int → Int → Bool) : List V → Out
  | [] => .arity
  | [x] => if isInt x then .go "x" [x] else .argument who "number?" x
  | [x, y] => if isInt x then (if isInt y then .go "cmp" [x, y] else .argument who "number?" y) else .argument who "number?" x
  | x :: rest => if isInt x then compareLoop who cmp x rest else .argument who "number?" x

/-- `zero?` (prelude.min:569-570). -/
def «zero?» (x : V) : Out := compare "=" (fun a b => a == b) [x, .int 0]

/-- The loops of `+`, `-` and `*` (prelude.min:601-608, 626-633, 652-659). -/
def arithLoop (who : String) : List V → Out
  | [] => .go "x" []
  | y :: ys => if isInt y then arithLoop who ys else .argument who "number?" y

/-- `+` (prelude.min:585-610). -/
def plus : List V → Out
  | [] => .go "0" []
  | [x] => if isInt x then .go "x" [x] else .argument "+" "number?" x
  | [x, y] => if isInt x then (if isInt y then .go "$fx2+" [x, y] else .argument "+" "number?" y) else .argument "+" "number?" x
  | x :: y :: rest => if isInt x then (if isInt y then arithLoop "+" rest else .argument "+" "number?" y) else .argument "+" "number?" x

/-- `-` (prelude.min:611-635). -/
def minus : List V → Out
  | [] => .arity
  | [x] => if isInt x then .go "$fx2-" [.int 0, x] else .argument "-" "number?" x
  | [x, y] => if isInt x then (if isInt y then .go "$fx2-" [x, y] else .argument "-" "number?" y) else .argument "-" "number?" x
  | x :: y :: rest => if isInt x then (if isInt y then arithLoop "-" rest else .argument "-" "number?" y) else .argument "-" "number?" x

/-- `*` (prelude.min:636-661): with three and more arguments the reports for the first and the second are exchanged. -/
def times : List V → Out
  | [] => .go "1" []
  | [x] => if isInt x then .go "x" [x] else .argument "*" "number?" x
  | [x, y] => if isInt x then (if isInt y then .go "$fx2*" [x, y] else .argument "*" "number?" y) else .argument "*" "number?" x
  | x :: y :: rest => if isInt x then (if isInt y then arithLoop "*" rest else .argument "*" "number?" x) else .argument "*" "number?" y

/-- `zero?` of a number. -/
def isZero (x : V) : Bool := num x == 0

/-- The loop of `/` (prelude.min:683-692); `division-0-error` is called `divide-0-error` where it is defined (581). -/
def divideLoop : List V → Out
  | [] => .go "x" []
  | y :: ys => if isInt y then (if isZero y then .unbound "division-0-error" else divideLoop ys) else .argument "-" "number?" y

/-- `/` (prelude.min:662-694). -/
def divide : List V → Out
  | [] => .arity
  | [x] => if isInt x then (if isZero x then .unbound "division-0-error" else .go "$fx2/" [.int 1, x]) else .argument "/" "number?" x
  | [x, y] => if isInt x then (if isInt y then (if isZero y then .unbound "division-0-error" else .go "$fx2/" [x, y]) else .argument "-" "number?" y) else .argument "-" "number?" x
  | x :: y :: rest => if isInt x then (if isInt y then (if isZero y then .unbound "division-0-error" else divideLoop rest) else .argument "-" "number?" y) else .argument "-" "number?" x

/-- `check-arg!` of `string` and `list->string` (prelude.min:793-799), on the elements. -/
def charsThen (who : String) (k : Out) : List V → Out
  | [] => k
  | x :: xs => if isChr x then charsThen who k xs else .argument who "char?" x

/-- `string` (prelude.min:801-803). -/
def string (args : List V) : Out := charsThen "string" (.go "$list->string" args) args

/-- `list->string` (prelude.min:804-806): `for-each` reports what is not a list. -/
def «list->string» (xs : V) : Out := if isList xs then charsThen "list->string" (.go "$list->string" [xs]) (elems xs) else .argument "for-each" "list?" xs

/-- `check-args!` of `make-string` (prelude.min:809-815): its parameters are called `n` and `c`. -/
def makeStringCheck (n c : V) : Out :=
  if isNat n then (if isChr c then .go "$make-string" [n, c] else .unbound "init") else .unbound "len"

/-- `make-string` (prelude.min:808-822). -/
def «make-string» : List V → Out
  | [n] => makeStringCheck n (.chr 97)
  | [n, c] => makeStringCheck n c
  | _ => .arity

/-- `string-ref` (prelude.min:830-838). -/
def «string-ref» (s i : V) : Out :=
  if isStr s then
    if isNat i then
      if num i ≥ len s then raiseRange "string-ref" s (.str "") 0 (len s) (num i) else .go "$string-ref" [s, i]
    else .argument "string-ref" "non-negative-integer?" i
  else .argument "string-ref" "string?" s

/-- `string-set!` (prelude.min:840-850). -/
def «string-set!» (s i c : V) : Out :=
  if isStr s then
    if isNat i then
      if num i ≥ len s then raiseRange "string-set!" s (.str "") 0 (len s) (num i)
      else if isChr c then .go "$string-set!" [s, i, c] else .argument "string-set!" "char?" c
    else .argument "string-set!" "non-negative-integer?" i
  else .argument "string-set!" "string?" s

/-- `string-append` (prelude.min:852-886): `check-args!` reports the variable `s`, which is not defined there. -/
def «string-append» (args : List V) : Out := if args.all isStr then .go "loop" args else .unbound "s"

/-- The loop of `append` (prelude.min:958-965), on the reversed arguments. -/
def appendLoop : List V → Out
  | [] => .go "acc" []
  | x :: xs => if isList x then appendLoop xs else .argument "append" "list?" x

/-- `append` (prelude.min:941-966). -/
def append : List V → Out
  | [] => .go "'()" []
  | [x] => if isList x then .go "xs" [x] else .argument "append" "list?" x
  | [x, y] => if isList x then (if isList y then .go "$append2" [x, y] else .argument "append" "list?" y) else .argument "append" "list?" x
  | xss => appendLoop xss.reverse

/-- The loop of `check-args!` (prelude.min:1000-1012); the length of the list before. -/
def listsLoop (who : String) (k : Out) : Option Nat → List V → Out
  | _, [] => k
  | p, x :: xs =>
    if isList x then
      (if p.all (· = (elems x).length) then listsLoop who k (some (elems x).length) xs else .error who "lists do not have same size")
    else .argument who "list?" x

/-- `for-each`, `map`, `andmap`, `ormap` (prelude.min:967-1073). -/
def mapper (who : String) : List V → Out
  | f :: x :: xs => if isProc f then listsLoop who (.go "f" (f :: x :: xs)) none (x :: xs) else .argument who "procedure?" f
  | _ => .arity

/-- `vector-ref` (prelude.min:1127-1135): the vector is passed as the description. -/
def «vector-ref» (v i : V) : Out :=
  if isVec v then
    if isNat i then
      if num i ≥ len v then raiseRange "vector-ref" (.str "") v 0 (len v) (num i) else .go "$vector-ref" [v, i]
    else .argument "vector-ref" "non-negative-integer?" i
  else .argument "vector-ref" "vector?" v

/-- `vector-set!` (prelude.min:1137-1145). -/
def «vector-set!» (v i x : V) : Out :=
  if isVec v then
    if isNat i then
      if num i ≥ len v then raiseRange "vector-set!" (.str "") v 0 (len v) (num i) else .go "$vector-set!" [v, i, x]
    else .argument "vector-set!" "non-negative-integer?" i
  else .argument "vector-set!" "vector?" v

/-- `open-input-string` (prelude.min:1195-1199): reports the variable `name`, which is not defined there. -/
def «open-input-string» (s : V) : Out := if isStr s then .go "$open-input-string" [s] else .unbound "name"

/-- `get-output-string` (prelude.min:1213-1217). -/
def «get-output-string» (p : V) : Out :=
  if (if isOut p then isStrPort p else false) then .go "$get-output-string" [p] else .argument "get-output-string" "(and output-port? string-port?)" p

/-- `record-type-field-mutable?` (prelude.min:1343-1352). -/
def «record-type-field-mutable?» (t i : V) : Out :=
  if isRtd t then
    if isNat i then
      if num i < len t then .go "$record-type-field-mutable?" [t, i] else raiseRange "record-type-field-mutable" t (.str "") 0 (len t) (num i)
    else .argument "record-type-field-mutable?" "non-negative integer?" i
  else .argument "record-type-field-mutable?" "record-type-name?" t

/-- `record-accessor` (prelude.min:1408-1428). -/
def «record-accessor» (t i : V) : Out :=
  if isRtd t then
    if isNat i then
      if num i < len t then .go "record-predicate" [t] else raiseRange "record-accessor" t (.str "") 0 (len t) (num i)
    else .argument "record-accessor" "non-negative-integer?" i
  else .argument "record-accessor" "record-type-descriptor?" t

/-- `record-mutator` (prelude.min:1429-1449). -/
def «record-mutator» (t i : V) : Out :=
  if isRtd t then
    if isNat i then
      if num i < len t then .go "record-predicate" [t] else raiseRange "record-mutator" t (.str "") 0 (len t) (num i)
    else .argument "record-mutator" "non-negative-integer?" i
  else .argument "record-mutator" "record-type-descriptor?" t

/-- `record-type-equal-procedure`, `record-type-hash-procedure` and `record-writer` (prelude.min:1743-1790, 1814-1833): `non-rtd-error` reports the variable `v_`. -/
def typeProcedure (who : String) : List V → Out
  | [t] => if isRtd t then .go "hashtable-ref" [t] else .unbound "v_"
  | [t, p] => if isRtd t then (if isProc p then .go "hashtable-set!" [t, p] else .argument who "procedure?" p) else .unbound "v_"
  | _ => .arity

/-- `1/put-string` (prelude.min:1975-1982): reports the variable `str`. -/
def putString1 (p s : V) (start n : Int) : Out :=
  if start ≤ len s then (if start + n ≤ len s then .go "$put-string" [p, s, .int start, .int n] else .unbound "str") else .unbound "str"

/-- `put-string` (prelude.min:1965-2007). -/
def «put-string» : List V → Out
  | [p, s] => if isOut p then (if isStr s then .go "$put-string" [p, s, .int 0, .int (len s)] else .argument "put-string" "string?" s) else .argument "put-string" "output-port?" p
  | [p, s, start] =>
    if isOut p then
      if isStr s then (if isNat start then putString1 p s (num start) (len s - num start) else .argument "put-string" "integer?" start) else .argument "put-string" "string?" s
    else .argument "put-string" "output-port?" p
  | [p, s, start, n] =>
    if isOut p then
      if isStr s then
        if isNat start then (if isNat n then putString1 p s (num start) (num n) else .argument "put-string" "integer?" start) else .argument "put-string" "integer?" start
      else .argument "put-string" "string?" s
    else .argument "put-string" "output-port?" p
  | _ => .arity

/-- The first step of `fmt-args` (prelude.min:2175): `string-length` reports what is not a string. -/
def fmtArgs (who : String) (fmt : V) (args : List V) : Out := match «string-length» fmt with
  | .go _ _ => .go ("fmt-args " ++ who) (fmt :: args)
  | o => o

/-- `printf`, `eprintf`, `format` (prelude.min:2246-2259). -/
def formatter (who : String) : List V → Out
  | fmt :: args => fmtArgs who fmt args
  | [] => .arity

/-- `fprintf` (prelude.min:2239-2245). -/
def fprintf : List V → Out
  | p :: fmt :: args => if isOut p then fmtArgs "fprintf" fmt args else .argument "fprintf" "output port?" fmt
  | _ => .arity

/-- `1/copy-environment` (prelude.min:2331-2339); `andmap` reports what is not a list. -/
def copyEnv (e m l : V) : Out :=
  if isEnv e then
    if isBool m then
      match mapper "andmap" [.proc 0, l] with
      | .go _ _ => if (elems l).all isSym then .go "$copy-environment" [e, m, l] else .argument "copy-environment" "list of symbols" l
      | o => o
    else .argument "copy-environment" "boolean?" m
  else .argument "copy-environment" "environment?" e

/-- `copy-environment` (prelude.min:2330-2343): the symbols are taken first. -/
def «copy-environment» : List V → Out
  | [e] => match «environment-symbols» e with
    | .go _ _ => copyEnv e .tru .null
    | o => o
  | [e, m] => match «environment-symbols» e with
    | .go _ _ => copyEnv e m .null
    | o => o
  | [e, m, l] => copyEnv e m l
  | _ => .arity

/-- `1/environment-ref` (prelude.min:2355-2366): `raise-argument-error` is misspelled. -/
def envRef1 (e k d : V) : Out :=
  if isEnv e then (if isSym k then .go "$environment-ref" [e, k, d] else .unbound "raise-arugment-error") else .unbound "raise-arugment-error"

/-- `environment-ref` (prelude.min:2351-2371). -/
def «environment-ref» : List V → Out
  | [e, k] => envRef1 e k (.proc 0)
  | [e, k, d] => envRef1 e k d
  | _ => .arity

/-! ### specification -/

/-- Specification: a contract: a predicate, or pairs of values. -/
inductive Ctc where
  | pred (p : V → Bool)
  | pairof (a b : Ctc)
  | conj (a b : Ctc)

/-- Specification: what it demands. -/
def Ctc.sat : Ctc → V → Bool
  | .pred p, v => p v
  | .pairof a b, v => isPair v && a.sat v.car && b.sat v.cdr
  | .conj a b, v => a.sat v && b.sat v

/-- Specification: the names of predicates. -/
def predOf : String → Option (V → Bool)
  | "any" => some fun _ => true
  | "pair?" => some isPair
  | "number?" => some isInt
  | "integer?" => some isInt
  | "non-negative-integer?" => some isNat
  | "an integer between 0 and 255" => some isByte
  | "symbol?" => some isSym
  | "list of symbols" => some fun v => isList v && (elems v).all isSym
  | "string?" => some isStr
  | "char?" => some isChr
  | "procedure?" => some isProc
  | "list?" => some isList
  | "vector?" => some isVec
  | "box?" => some isBox
  | "boolean?" => some isBool
  | "input-port?" => some isIn
  | "output-port?" => some isOut
  | "string-port?" => some isStrPort
  | "record-type-descriptor?" => some isRtd
  | "record?" => some isRecord
  | "$record-value?" => some isRcd
  | "hashtable?" => some isTable
  | "environment?" => some isEnv
  | "syntax?" => some isStx
  | _ => none

/-- Specification: tokens of compound contracts. -/
inductive Tok where
  | op | cl
  | word (w : List Char)

/-- Specification: a word read so far. -/
def flush (w : List Char) (ts : List Tok) : List Tok := if w.isEmpty then ts else .word w.reverse :: ts

/-- Specification: into tokens. -/
def toks : List Char → List Char → List Tok
  | [], w => flush w []
  | c :: cs, w => if c = '(' then flush w (.op :: toks cs []) else if c = ')' then flush w (.cl :: toks cs []) else if c = ' ' then flush w (toks cs []) else toks cs (c :: w)

/-- Specification: `(pairof C C)`, `(and C C)` or a predicate. -/
def parseC : Nat → List Tok → Option (Ctc × List Tok)
  | 0, _ => none
  | _ + 1, .word w :: ts => (predOf (String.ofList w)).map fun p => (.pred p, ts)
  | n + 1, .op :: .word w :: ts =>
    match parseC n ts with
    | some (a, ts) =>
      match parseC n ts with
      | some (b, .cl :: ts) =>
        if w = "pairof".toList then some (.pairof a b, ts) else if w = "and".toList then some (.conj a b, ts) else none
      | _ => none
    | none => none
  | _, _ => none

/-- Specification: the contract a text denotes; `none` if it denotes none. -/
def ctc (s : String) : Option Ctc :=
  match predOf s with
  | some p => some (.pred p)
  | none =>
    match parseC 10 (toks s.toList []) with
    | some (c, []) => some c
    | _ => none

/-- Specification: does a value satisfy a contract?  Nothing satisfies a text that is no contract. -/
def sat (c : String) (v : V) : Bool := match ctc c with | some c => c.sat v | none => false

/-- Specification: a signature: contracts of required, optional and further arguments; the positions of a container and an index into it; must lists be of one length? -/
structure Sig where
  req : List String
  opt : List String := []
  rest : Option String := none
  bound : Option (Nat × Nat) := none
  same : Bool := false

/-- Specification: may there be so many arguments? -/
def Sig.accepts (s : Sig) (n : Nat) : Bool := decide (s.req.length ≤ n) && (s.rest.isSome || decide (n ≤ s.req.length + s.opt.length))

/-- Specification: the contract of an argument. -/
def Sig.at (s : Sig) (i : Nat) : String := ((s.req ++ s.opt)[i]?).getD (s.rest.getD "any")

/-- Specification: all arguments, from position `i` on, satisfy their contracts. -/
def Sig.legal (s : Sig) : Nat → List V → Bool
  | _, [] => true
  | i, v :: vs => sat (s.at i) v && s.legal (i + 1) vs

/-- Specification: one of the arguments is `v`, and does not satisfy its contract. -/
def Sig.blames (s : Sig) (v : V) : Nat → List V → Bool
  | _, [] => false
  | i, a :: as => (decide (a = v) && !sat (s.at i) a) || s.blames v (i + 1) as

/-- Specification: two of the lists differ in length. -/
def unequal (args : List V) : Bool := args.any fun a => args.any fun b => isList a && isList b && decide ((elems a).length ≠ (elems b).length)

/-- Specification: the index is not out of bounds, and lists that must be of one length are. -/
def Sig.inside (s : Sig) (args : List V) : Bool :=
  match s.bound with
  | none => !(s.same && unequal args)
  | some (c, i) => decide (0 ≤ num ((args[i]?).getD .null) ∧ num ((args[i]?).getD .null) < len ((args[c]?).getD .null))

/-- Specification: the index `i` into the container `v` is out of the bounds `0` to `up`. -/
def Sig.outside (s : Sig) (args : List V) (v : V) (up i : Int) : Bool :=
  match s.bound with
  | none => false
  | some (c, j) => decide (args[c]? = some v ∧ args[j]? = some (.int i) ∧ up = len v ∧ ¬ (0 ≤ i ∧ i < up)) && sat (s.at c) v && sat (s.at j) (.int i)

/-- A procedure with its name and its signature. -/
structure Row where
  name : String
  f : List V → Out
  sig : Sig

/-- Specification: what is reported is right: the procedure called, an argument that does not satisfy its contract, and a contract it does not satisfy; or an index that is out of bounds, or lists of different lengths. -/
def Accurate (r : Row) (args : List V) : Out → Bool
  | .go _ _ => true
  | .argument w c v => decide (w = r.name) && r.sig.blames v 0 args && (ctc c).isSome && !sat c v
  | .range w v _ lo up i => decide (w = r.name ∧ lo = 0) && r.sig.outside args v up i
  | .error w _ => decide (w = r.name) && r.sig.same && unequal args
  | .unbound _ => false
  | .arity => false

/-- Specification: the procedure goes on only if all arguments satisfy their contracts and the index is inside. -/
def Complete (r : Row) (args : List V) : Out → Bool
  | .go _ _ => r.sig.legal 0 args && r.sig.inside args
  | _ => true

/-- Specification: reports are accurate, and nothing wrong is accepted, for any arguments of the right number. -/
def Reports (r : Row) : Prop := ∀ args, r.sig.accepts args.length = true → Accurate r args (r.f args) = true ∧ Complete r args (r.f args) = true

/-- A procedure of one, two or three arguments on an argument list. -/
def fix1 (f : V → Out) : List V → Out | [a] => f a | _ => .arity
def fix2 (f : V → V → Out) : List V → Out | [a, b] => f a b | _ => .arity
def fix3 (f : V → V → V → Out) : List V → Out | [a, b, c] => f a b c | _ => .arity

/-! ### the procedures -/

/-- The procedures whose checks are right. -/
def good : List Row := [
  ⟨"car", fix1 car, { req := ["pair?"] }⟩,
  ⟨"cdr", fix1 cdr, { req := ["pair?"] }⟩,
  ⟨"caar", fix1 caar, { req := ["(pairof pair? any)"] }⟩,
  ⟨"cadr", fix1 cadr, { req := ["(pairof any pair?)"] }⟩,
  ⟨"cdar", fix1 cdar, { req := ["(pairof pair? any)"] }⟩,
  ⟨"cddr", fix1 cddr, { req := ["(pairof any pair?)"] }⟩,
  ⟨"caaar", fix1 caaar, { req := ["(pairof (pairof pair? any) any)"] }⟩,
  ⟨"caadr", fix1 caadr, { req := ["(pairof any (pairof pair? any))"] }⟩,
  ⟨"cadar", fix1 cadar, { req := ["(pairof (pairof any pair?) any)"] }⟩,
  ⟨"cdaar", fix1 cdaar, { req := ["(pairof (pairof pair? any) any)"] }⟩,
  ⟨"cdadr", fix1 cdadr, { req := ["(pairof any (pairof pair? any))"] }⟩,
  ⟨"cddar", fix1 cddar, { req := ["(pairof (pairof any pair?) any)"] }⟩,
  ⟨"caaaar", fix1 caaaar, { req := ["(pairof (pairof (pairof pair? any) any) any)"] }⟩,
  ⟨"caaadr", fix1 caaadr, { req := ["(pairof any (pairof (pairof pair? any) any))"] }⟩,
  ⟨"caadar", fix1 caadar, { req := ["(pairof (pairof any (pairof pair? any)) any)"] }⟩,
  ⟨"cadaar", fix1 cadaar, { req := ["(pairof (pairof (pairof any pair?) any) any)"] }⟩,
  ⟨"cadadr", fix1 cadadr, { req := ["(pairof any (pairof (pairof any pair?) any))"] }⟩,
  ⟨"caddar", fix1 caddar, { req := ["(pairof (pairof any (pairof any pair?)) any)"] }⟩,
  ⟨"cdaaar", fix1 cdaaar, { req := ["(pairof (pairof (pairof pair? any) any) any)"] }⟩,
  ⟨"cdaadr", fix1 cdaadr, { req := ["(pairof any (pairof (pairof pair? any) any))"] }⟩,
  ⟨"cdadar", fix1 cdadar, { req := ["(pairof (pairof any (pairof pair? any)) any)"] }⟩,
  ⟨"cddaar", fix1 cddaar, { req := ["(pairof (pairof (pairof any pair?) any) any)"] }⟩,
  ⟨"cddadr", fix1 cddadr, { req := ["(pairof any (pairof (pairof any pair?) any))"] }⟩,
  ⟨"cdddar", fix1 cdddar, { req := ["(pairof (pairof any (pairof any pair?)) any)"] }⟩,
  ⟨"set-car!", fix2 «set-car!», { req := ["pair?", "any"] }⟩,
  ⟨"set-cdr!", fix2 «set-cdr!», { req := ["pair?", "any"] }⟩,
  ⟨"add1", fix1 add1, { req := ["number?"] }⟩,
  ⟨"sub1", fix1 sub1, { req := ["number?"] }⟩,
  ⟨"remainder", fix2 remainder, { req := ["number?", "number?"] }⟩,
  ⟨"modulo", fix2 modulo, { req := ["number?", "number?"] }⟩,
  ⟨"procedure-arity", fix1 «procedure-arity», { req := ["procedure?"] }⟩,
  ⟨"procedure-name", fix1 «procedure-name», { req := ["procedure?"] }⟩,
  ⟨"procedure-rename", fix2 «procedure-rename», { req := ["procedure?", "symbol?"] }⟩,
  ⟨"char->integer", fix1 «char->integer», { req := ["char?"] }⟩,
  ⟨"integer->char", fix1 «integer->char», { req := ["integer?"] }⟩,
  ⟨"string-length", fix1 «string-length», { req := ["string?"] }⟩,
  ⟨"number->string", fix1 «number->string», { req := ["number?"] }⟩,
  ⟨"string->number", fix1 «string->number», { req := ["string?"] }⟩,
  ⟨"symbol->string", fix1 «symbol->string», { req := ["symbol?"] }⟩,
  ⟨"string->symbol", fix1 «string->symbol», { req := ["string?"] }⟩,
  ⟨"string->list", fix1 «string->list», { req := ["string?"] }⟩,
  ⟨"length", fix1 length, { req := ["list?"] }⟩,
  ⟨"reverse", fix1 reverse, { req := ["list?"] }⟩,
  ⟨"enumerate", fix1 enumerate, { req := ["list?"] }⟩,
  ⟨"vector-length", fix1 «vector-length», { req := ["vector?"] }⟩,
  ⟨"list->vector", fix1 «list->vector», { req := ["list?"] }⟩,
  ⟨"vector->list", fix1 «vector->list», { req := ["vector?"] }⟩,
  ⟨"unbox", fix1 unbox, { req := ["box?"] }⟩,
  ⟨"set-box!", fix2 «set-box!», { req := ["box?", "any"] }⟩,
  ⟨"open-input-file", fix1 «open-input-file», { req := ["string?"] }⟩,
  ⟨"open-output-file", fix1 «open-output-file», { req := ["string?"] }⟩,
  ⟨"record-rtd", fix1 «record-rtd», { req := ["record?"] }⟩,
  ⟨"record-constructor", fix1 «record-constructor», { req := ["record-type-descriptor?"] }⟩,
  ⟨"record-predicate", fix1 «record-predicate», { req := ["record-type-descriptor?"] }⟩,
  ⟨"hashtable-copy", fix1 «hashtable-copy», { req := ["hashtable?"] }⟩,
  ⟨"hashtable-entries", fix1 «hashtable-entries», { req := ["hashtable?"] }⟩,
  ⟨"hashtable-set!", fix3 «hashtable-set!», { req := ["hashtable?", "any", "any"] }⟩,
  ⟨"hashtable-clear!", fix1 «hashtable-clear!», { req := ["hashtable?"] }⟩,
  ⟨"record-equal-procedure", fix2 «record-equal-procedure», { req := ["$record-value?", "$record-value?"] }⟩,
  ⟨"flush-output-port", fix1 «flush-output-port», { req := ["output-port?"] }⟩,
  ⟨"put-datum", fix2 «put-datum», { req := ["output-port?", "any"] }⟩,
  ⟨"fasl-read", fix1 «fasl-read», { req := ["input-port?"] }⟩,
  ⟨"fasl-write", fix2 «fasl-write», { req := ["any", "output-port?"] }⟩,
  ⟨"syntax-e", fix1 «syntax-e», { req := ["syntax?"] }⟩,
  ⟨"syntax-loc", fix1 «syntax-loc», { req := ["syntax?"] }⟩,
  ⟨"syntax->datum", fix1 «syntax->datum», { req := ["syntax?"] }⟩,
  ⟨"syntax->list", fix1 «syntax->list», { req := ["syntax?"] }⟩,
  ⟨"make-pattern-variable", fix2 «make-pattern-variable», { req := ["any", "non-negative-integer?"] }⟩,
  ⟨"environment-symbols", fix1 «environment-symbols», { req := ["environment?"] }⟩,
  ⟨"environment-set!", fix3 «environment-set!», { req := ["environment?", "symbol?", "any"] }⟩,
  ⟨"load", fix1 load, { req := ["string?"] }⟩,
  ⟨"read", read, { req := [], opt := ["input-port?"] }⟩,
  ⟨"read-char", «read-char», { req := [], opt := ["input-port?"] }⟩,
  ⟨"peek-char", «peek-char», { req := [], opt := ["input-port?"] }⟩,
  ⟨"char-ready?", «char-ready?», { req := [], opt := ["input-port?"] }⟩,
  ⟨"make-vector", «make-vector», { req := ["non-negative-integer?"], opt := ["any"] }⟩,
  ⟨"write-char", «write-char», { req := ["char?"], opt := ["output-port?"] }⟩,
  ⟨"write", write, { req := ["any"], opt := ["output-port?"] }⟩,
  ⟨"display", display, { req := ["any"], opt := ["output-port?"] }⟩,
  ⟨"current-environment", «current-environment», { req := [], opt := ["environment?"] }⟩,
  ⟨"current-directory", «current-directory», { req := [], opt := ["string?"] }⟩,
  ⟨"current-error-handler", «current-error-handler», { req := [], opt := ["procedure?"] }⟩,
  ⟨"exit", exit, { req := [], opt := ["an integer between 0 and 255"] }⟩,
  ⟨"default-record-equal-procedure", «default-record-equal-procedure», { req := [], opt := ["procedure?"] }⟩,
  ⟨"default-record-hash-procedure", «default-record-hash-procedure», { req := [], opt := ["procedure?"] }⟩,
  ⟨"hashtable-ref", «hashtable-ref», { req := ["hashtable?", "any"], opt := ["any"] }⟩,
  ⟨"hashtable-update!", «hashtable-update!», { req := ["hashtable?", "any", "procedure?"], opt := ["any"] }⟩,
  ⟨"+", plus, { req := [], rest := some "number?" }⟩,
  ⟨"-", minus, { req := ["number?"], rest := some "number?" }⟩,
  ⟨"string", string, { req := [], rest := some "char?" }⟩,
  ⟨"string-ref", fix2 «string-ref», { req := ["string?", "non-negative-integer?"], bound := some (0, 1) }⟩,
  ⟨"string-set!", fix3 «string-set!», { req := ["string?", "non-negative-integer?", "char?"], bound := some (0, 1) }⟩,
  ⟨"append", append, { req := [], rest := some "list?" }⟩,
  ⟨"for-each", mapper "for-each", { req := ["procedure?", "list?"], rest := some "list?", same := true }⟩,
  ⟨"map", mapper "map", { req := ["procedure?", "list?"], rest := some "list?", same := true }⟩,
  ⟨"andmap", mapper "andmap", { req := ["procedure?", "list?"], rest := some "list?", same := true }⟩,
  ⟨"ormap", mapper "ormap", { req := ["procedure?", "list?"], rest := some "list?", same := true }⟩,
  ⟨"get-output-string", fix1 «get-output-string», { req := ["(and output-port? string-port?)"] }⟩,
  ⟨"record-accessor", fix2 «record-accessor», { req := ["record-type-descriptor?", "non-negative-integer?"], bound := some (0, 1) }⟩,
  ⟨"record-mutator", fix2 «record-mutator», { req := ["record-type-descriptor?", "non-negative-integer?"], bound := some (0, 1) }⟩]

/-- Comparisons, each with arguments it accepts though the last is wrong. -/
def comparisons : List (Row × List V) := [
  (⟨"=", compare "=" (fun a b => decide (a = b)), { req := ["number?"], rest := some "number?" }⟩, [.int 0, .int 1, .null]),
  (⟨">", compare ">" (fun a b => decide (a > b)), { req := ["number?"], rest := some "number?" }⟩, [.int 0, .int 1, .null]),
  (⟨"<", compare "<" (fun a b => decide (a < b)), { req := ["number?"], rest := some "number?" }⟩, [.int 1, .int 0, .null]),
  (⟨">=", compare ">=" (fun a b => decide (a ≥ b)), { req := ["number?"], rest := some "number?" }⟩, [.int 0, .int 1, .null]),
  (⟨"<=", compare "<=" (fun a b => decide (a ≤ b)), { req := ["number?"], rest := some "number?" }⟩, [.int 1, .int 0, .null])]

/-- The procedures whose checks are wrong, each with arguments for which they are. -/
def bad : List (Row × List V) := [
  (⟨"caddr", fix1 caddr, { req := ["(pairof any (pairof any pair?))"] }⟩, [.pair (.pair .null (.pair .null .null)) .null]),
  (⟨"cdddr", fix1 cdddr, { req := ["(pairof any (pairof any pair?))"] }⟩, [.pair (.pair .null (.pair .null .null)) .null]),
  (⟨"caaddr", fix1 caaddr, { req := ["(pairof any (pairof any (pairof pair? any)))"] }⟩, [.pair (.pair .null (.pair (.pair .null .null) .null)) .null]),
  (⟨"cadddr", fix1 cadddr, { req := ["(pairof any (pairof any (pairof any pair?)))"] }⟩, [.null]),
  (⟨"cdaddr", fix1 cdaddr, { req := ["(pairof any (pairof any (pairof pair? any)))"] }⟩, [.pair (.pair .null (.pair (.pair .null .null) .null)) .null]),
  (⟨"cddddr", fix1 cddddr, { req := ["(pairof any (pairof any (pairof any pair?)))"] }⟩, [.null]),
  (⟨"make-list", fix2 «make-list», { req := ["non-negative-integer?", "any"] }⟩, [.null, .null]),
  (⟨"iota", fix1 iota, { req := ["non-negative-integer?"] }⟩, [.null]),
  (⟨"vector-fill!", fix2 «vector-fill!», { req := ["vector?", "any"] }⟩, [.null, .null]),
  (⟨"close-input-port", fix1 «close-input-port», { req := ["input-port?"] }⟩, [.null]),
  (⟨"close-output-port", fix1 «close-output-port», { req := ["output-port?"] }⟩, [.null]),
  (⟨"record-type-name", fix1 «record-type-name», { req := ["record-type-descriptor?"] }⟩, [.null]),
  (⟨"record-type-parent", fix1 «record-type-parent», { req := ["record-type-descriptor?"] }⟩, [.null]),
  (⟨"record-type-uid", fix1 «record-type-uid», { req := ["record-type-descriptor?"] }⟩, [.null]),
  (⟨"record-type-sealed?", fix1 «record-type-sealed?», { req := ["record-type-descriptor?"] }⟩, [.null]),
  (⟨"record-type-opaque?", fix1 «record-type-opaque?», { req := ["record-type-descriptor?"] }⟩, [.null]),
  (⟨"record-type-field-names", fix1 «record-type-field-names», { req := ["record-type-descriptor?"] }⟩, [.null]),
  (⟨"hashtable-size", fix1 «hashtable-size», { req := ["hashtable?"] }⟩, [.null]),
  (⟨"hashtable-keys", fix1 «hashtable-keys», { req := ["hashtable?"] }⟩, [.null]),
  (⟨"hashtable-vals", fix1 «hashtable-vals», { req := ["hashtable?"] }⟩, [.null]),
  (⟨"hashtable-contains?", fix2 «hashtable-contains?», { req := ["hashtable?", "any"] }⟩, [.null, .null]),
  (⟨"hashtable-delete!", fix2 «hashtable-delete!», { req := ["hashtable?", "any"] }⟩, [.null, .null]),
  (⟨"record-hash-procedure", fix1 «record-hash-procedure», { req := ["$record-value?"] }⟩, [.null]),
  (⟨"put-char", fix2 «put-char», { req := ["output-port?", "char?"] }⟩, [.null, .chr 0]),
  (⟨"newline", newline, { req := [], opt := ["output-port?"] }⟩, [.null]),
  (⟨"*", times, { req := [], rest := some "number?" }⟩, [.int 1, .null, .int 1]),
  (⟨"/", divide, { req := ["number?"], rest := some "number?" }⟩, [.null, .int 1]),
  (⟨"zero?", fix1 «zero?», { req := ["number?"] }⟩, [.null]),
  (⟨"list->string", fix1 «list->string», { req := ["list?"] }⟩, [.int 0]),
  (⟨"make-string", «make-string», { req := ["non-negative-integer?"], opt := ["char?"] }⟩, [.null]),
  (⟨"string-append", «string-append», { req := [], rest := some "string?" }⟩, [.null]),
  (⟨"vector-ref", fix2 «vector-ref», { req := ["vector?", "non-negative-integer?"], bound := some (0, 1) }⟩, [.vec 0 0, .int 0]),
  (⟨"vector-set!", fix3 «vector-set!», { req := ["vector?", "non-negative-integer?", "any"], bound := some (0, 1) }⟩, [.vec 0 0, .int 0, .null]),
  (⟨"open-input-string", fix1 «open-input-string», { req := ["string?"] }⟩, [.null]),
  (⟨"record-type-field-mutable?", fix2 «record-type-field-mutable?», { req := ["record-type-descriptor?", "non-negative-integer?"], bound := some (0, 1) }⟩, [.null, .null]),
  (⟨"record-type-equal-procedure", typeProcedure "record-type-equal-procedure", { req := ["record-type-descriptor?"], opt := ["procedure?"] }⟩, [.null]),
  (⟨"record-type-hash-procedure", typeProcedure "record-type-hash-procedure", { req := ["record-type-descriptor?"], opt := ["procedure?"] }⟩, [.null]),
  (⟨"record-writer", typeProcedure "record-writer", { req := ["record-type-descriptor?"], opt := ["procedure?"] }⟩, [.null]),
  (⟨"put-string", «put-string», { req := ["output-port?", "string?"], opt := ["non-negative-integer?", "non-negative-integer?"] }⟩, [.outPort true 0, .str "", .int (-1)]),
  (⟨"fprintf", fprintf, { req := ["output-port?", "string?"], rest := some "any" }⟩, [.null, .str ""]),
  (⟨"printf", formatter "printf", { req := ["string?"], rest := some "any" }⟩, [.null]),
  (⟨"eprintf", formatter "eprintf", { req := ["string?"], rest := some "any" }⟩, [.null]),
  (⟨"format", formatter "format", { req := ["string?"], rest := some "any" }⟩, [.null]),
  (⟨"copy-environment", «copy-environment», { req := ["environment?"], opt := ["boolean?", "list of symbols"] }⟩, [.null]),
  (⟨"environment-ref", «environment-ref», { req := ["environment?", "symbol?"], opt := ["any"] }⟩, [.null, .null])]

end Minim.Pre
