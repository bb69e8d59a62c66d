import Verif.Basic

set_option autoImplicit false

/-!
# Syntax objects

Model of syntax.c and of the wrappers prelude.min:2280-2302.  Data are finite trees: pairs, vectors and boxes are given by their
contents (the functions modelled here never change an argument and never compare addresses; cyclic data, on which the C code does
not return, are not represented).
-/

namespace Minim.Stx

/-- Objects as far as syntax.c distinguishes them (`minim_type`, minim.h:50-77): null, pairs, vectors, boxes, syntax objects with their
source location, and every other object (`atom`), which is copied by reference. -/
inductive D where
  | null
  | fls
  | atom (n : Nat)
  | cons (a d : D)
  | vec (es : List D)
  | box (d : D)
  | stx (e loc : D)

/-- `Msyntax` with the location `#f` (syntax.c:7-13). -/
def msyntax (e : D) : D := .stx e .fls

mutual

/-- `to_syntax` (syntax.c:74-88), `datum->syntax` (prim.c:165). -/
def toSyntax : D → D
  | .stx e l => .stx e l
  | .cons a d => msyntax (.cons (toSyntax a) (pairTail d))
  | .vec es => msyntax (.vec (toSyntaxAll es))
  | .box d => msyntax (.box (toSyntax d))
  | .null => msyntax .null
  | .fls => msyntax .fls
  | .atom n => msyntax (.atom n)

/-- The loop of `pair_to_syntax` over the cdrs and what it does with the last one (syntax.c:20-29): pairs are copied with converted cars,
null stays null, any other tail is converted. -/
def pairTail : D → D
  | .cons a d => .cons (toSyntax a) (pairTail d)
  | .null => .null
  | .stx e l => .stx e l
  | .vec es => msyntax (.vec (toSyntaxAll es))
  | .box d => msyntax (.box (toSyntax d))
  | .fls => msyntax .fls
  | .atom n => msyntax (.atom n)

/-- The loop of `vector_to_syntax` (syntax.c:35-40). -/
def toSyntaxAll : List D → List D
  | [] => []
  | d :: ds => toSyntax d :: toSyntaxAll ds

end

mutual

/-- `strip_syntax` (syntax.c:91-106). -/
def strip : D → D
  | .stx e _ => strip e
  | .cons a d => .cons (strip a) (strip d)
  | .box d => .box (strip d)
  | .vec es => .vec (stripAll es)
  | .null => .null
  | .fls => .fls
  | .atom n => .atom n

/-- The loop of `strip_vector` (syntax.c:43-48). -/
def stripAll : List D → List D
  | [] => []
  | d :: ds => strip d :: stripAll ds

end

/-- `syntax_strip_once` (syntax.c:51-53). -/
def stripOnce : D → D
  | .stx e _ => e
  | d => d

/-- The loop of `syntax_to_list` (syntax.c:112-128) over `it`, with the cars met so far as the result list; `#f` (`none`) if the chain does
not end in null.  The two cases of the code for the first step and the later ones (syntax.c:112-117) are one here.  A syntax object right
inside a syntax object ends the chain, since only one layer is removed. -/
def listLoop : D → Option (List D)
  | .cons a (.stx e _) => (listLoop e).map (a :: ·)
  | .cons a d => (listLoop d).map (a :: ·)
  | .null => some []
  | _ => none

/-- `syntax_to_list` (syntax.c:108-133). -/
def syntaxToList (s : D) : Option (List D) := listLoop (stripOnce s)

/-- `syntax?` (syntax.c:59-62). -/
def D.isStx : D → Bool
  | .stx _ _ => true
  | _ => false

/-- `syntax->datum` (prelude.min:2292-2296). -/
def pSyntaxToDatum (s : D) : Res D := if s.isStx then .ok (strip s) else .err

/-- `syntax->list` (prelude.min:2298-2302). -/
def pSyntaxToList (s : D) : Res (Option (List D)) := if s.isStx then .ok (syntaxToList s) else .err

/-- `syntax-e` (prelude.min:2280-2284, syntax.c:64-67). -/
def pSyntaxE : D → Res D
  | .stx e _ => .ok e
  | _ => .err

/-- `syntax-loc` (prelude.min:2286-2290, syntax.c:69-72). -/
def pSyntaxLoc : D → Res D
  | .stx _ l => .ok l
  | _ => .err

end Minim.Stx
