import Verif.ListHeap

set_option autoImplicit false

/-!
# The C functions behind car to cddddr (C112)

list.c:82-242: thirty functions that follow pointers without a check, and two that assign.
-/

namespace Minim.LH

/-! ### The code -/

/-- `minim_caar` (minim.h:232) -/
def caar (h : Heap) (v : V) : Res V := do let x ← car h v; car h x
/-- `minim_cadr` (minim.h:233) -/
def cadr (h : Heap) (v : V) : Res V := do let x ← cdr h v; car h x
/-- `minim_cdar` (minim.h:234) -/
def cdar (h : Heap) (v : V) : Res V := do let x ← car h v; cdr h x
/-- `minim_cddr` (minim.h:235) -/
def cddr (h : Heap) (v : V) : Res V := do let x ← cdr h v; cdr h x

/-- `car_proc` (list.c:82-85) -/
def carProc (h : Heap) (v : V) : Res V := car h v
/-- `cdr_proc` (list.c:87-90) -/
def cdrProc (h : Heap) (v : V) : Res V := cdr h v
/-- `caar_proc` (list.c:92-95) -/
def caarProc (h : Heap) (v : V) : Res V := caar h v
/-- `cadr_proc` (list.c:97-100) -/
def cadrProc (h : Heap) (v : V) : Res V := cadr h v
/-- `cdar_proc` (list.c:102-105) -/
def cdarProc (h : Heap) (v : V) : Res V := cdar h v
/-- `cddr_proc` (list.c:107-110) -/
def cddrProc (h : Heap) (v : V) : Res V := cddr h v
/-- `caaar_proc` (list.c:112-115) -/
def caaarProc (h : Heap) (v : V) : Res V := do let x ← caar h v; car h x
/-- `caadr_proc` (list.c:117-120) -/
def caadrProc (h : Heap) (v : V) : Res V := do let x ← cadr h v; car h x
/-- `cadar_proc` (list.c:122-125) -/
def cadarProc (h : Heap) (v : V) : Res V := do let x ← cdar h v; car h x
/-- `caddr_proc` (list.c:127-130) -/
def caddrProc (h : Heap) (v : V) : Res V := do let x ← cddr h v; car h x
/-- `cdaar_proc` (list.c:132-135) -/
def cdaarProc (h : Heap) (v : V) : Res V := do let x ← caar h v; cdr h x
/-- `cdadr_proc` (list.c:137-140) -/
def cdadrProc (h : Heap) (v : V) : Res V := do let x ← cadr h v; cdr h x
/-- `cddar_proc` (list.c:142-145) -/
def cddarProc (h : Heap) (v : V) : Res V := do let x ← cdar h v; cdr h x
/-- `cdddr_proc` (list.c:147-150) -/
def cdddrProc (h : Heap) (v : V) : Res V := do let x ← cddr h v; cdr h x
/-- `caaaar_proc` (list.c:152-155) -/
def caaaarProc (h : Heap) (v : V) : Res V := do let x ← caar h v; caar h x
/-- `caaadr_proc` (list.c:157-160) -/
def caaadrProc (h : Heap) (v : V) : Res V := do let x ← cadr h v; caar h x
/-- `caadar_proc` (list.c:162-165) -/
def caadarProc (h : Heap) (v : V) : Res V := do let x ← cdar h v; caar h x
/-- `caaddr_proc` (list.c:167-170) -/
def caaddrProc (h : Heap) (v : V) : Res V := do let x ← cddr h v; caar h x
/-- `cadaar_proc` (list.c:172-175) -/
def cadaarProc (h : Heap) (v : V) : Res V := do let x ← caar h v; cadr h x
/-- `cadadr_proc` (list.c:177-180) -/
def cadadrProc (h : Heap) (v : V) : Res V := do let x ← cadr h v; cadr h x
/-- `caddar_proc` (list.c:182-185) -/
def caddarProc (h : Heap) (v : V) : Res V := do let x ← cdar h v; cadr h x
/-- `cadddr_proc` (list.c:187-190) -/
def cadddrProc (h : Heap) (v : V) : Res V := do let x ← cddr h v; cadr h x
/-- `cdaaar_proc` (list.c:192-195) -/
def cdaaarProc (h : Heap) (v : V) : Res V := do let x ← caar h v; cdar h x
/-- `cdaadr_proc` (list.c:197-200) -/
def cdaadrProc (h : Heap) (v : V) : Res V := do let x ← cadr h v; cdar h x
/-- `cdadar_proc` (list.c:202-205) -/
def cdadarProc (h : Heap) (v : V) : Res V := do let x ← cdar h v; cdar h x
/-- `cdaddr_proc` (list.c:207-210) -/
def cdaddrProc (h : Heap) (v : V) : Res V := do let x ← cddr h v; cdar h x
/-- `cddaar_proc` (list.c:212-215) -/
def cddaarProc (h : Heap) (v : V) : Res V := do let x ← caar h v; cddr h x
/-- `cddadr_proc` (list.c:217-220) -/
def cddadrProc (h : Heap) (v : V) : Res V := do let x ← cadr h v; cddr h x
/-- `cdddar_proc` (list.c:222-225) -/
def cdddarProc (h : Heap) (v : V) : Res V := do let x ← cdar h v; cddr h x
/-- `cddddr_proc` (list.c:227-230) -/
def cddddrProc (h : Heap) (v : V) : Res V := do let x ← cddr h v; cddr h x

/-- The assignment to `minim_car` (minim.h:229), unchecked -/
def setCar (h : Heap) (v x : V) : Res Heap :=
  match v with
  | .ptr a => match h[a]? with
    | some (.pair _ d) => .ok (h.set a (.pair x d))
    | _ => .ub
  | _ => .ub

/-- `set_car_proc` (list.c:232-236) -/
def setCarProc (h : Heap) (v x : V) : Res Heap := setCar h v x
/-- `set_cdr_proc` (list.c:238-242) -/
def setCdrProc (h : Heap) (v x : V) : Res Heap := setCdr h v x

/-- The names under which the functions are known to Scheme code (prim.c:43-72). -/
def accessorTable (h : Heap) : List (String × (V → Res V)) :=
  [("$car", carProc h), ("$cdr", cdrProc h), ("$caar", caarProc h), ("$cadr", cadrProc h), ("$cdar", cdarProc h),
    ("$cddr", cddrProc h), ("$caaar", caaarProc h), ("$caadr", caadrProc h), ("$cadar", cadarProc h), ("$caddr", caddrProc h),
    ("$cdaar", cdaarProc h), ("$cdadr", cdadrProc h), ("$cddar", cddarProc h), ("$cdddr", cdddrProc h), ("$caaaar", caaaarProc h),
    ("$caaadr", caaadrProc h), ("$caadar", caadarProc h), ("$caaddr", caaddrProc h), ("$cadaar", cadaarProc h), ("$cadadr", cadadrProc h),
    ("$caddar", caddarProc h), ("$cadddr", cadddrProc h), ("$cdaaar", cdaaarProc h), ("$cdaadr", cdaadrProc h), ("$cdadar", cdadarProc h),
    ("$cdaddr", cdaddrProc h), ("$cddaar", cddaarProc h), ("$cddadr", cddadrProc h), ("$cdddar", cdddarProc h), ("$cddddr", cddddrProc h)]

/-! ### Specification -/

/-- Specification: the part of a value that letters between `c` and `r` spell: the last letter is the first step. -/
def part (h : Heap) : List Char → V → Option V
  | [], v => some v
  | c :: w, v => match part h w v with
    | none => none
    | some u => match pairAt h u with
      | none => none
      | some p => if c = 'a' then some p.1 else some p.2

/-- Specification: the words of `a` and `d` of a length. -/
def words : Nat → List (List Char)
  | 0 => [[]]
  | n + 1 => (words n).map ('a' :: ·) ++ (words n).map ('d' :: ·)

/-! ### Proofs -/

/-- The same with one function per letter. -/
def path (h : Heap) : List Char → V → Res V
  | [], v => .ok v
  | c :: w, v => do let u ← path h w v; if c = 'a' then car h u else cdr h u

theorem path_part (h : Heap) : ∀ (w : List Char) (v : V), path h w v = match part h w v with | some u => .ok u | none => .ub
  | [], _ => rfl
  | c :: w, v => by
    rw [path, part, path_part h w v]
    cases part h w v with
    | none => rfl
    | some u =>
      simp only [Res.ok_bind, car, cdr]
      cases pairAt h u with
      | none => split <;> rfl
      | some p => split <;> rfl

theorem bind_assoc' {α β γ : Type} (a : Res α) (f : α → Res β) (g : β → Res γ) : (a >>= f) >>= g = a >>= fun x => f x >>= g := by cases a <;> rfl

set_option linter.unusedSimpArgs false in
theorem table_path (h : Heap) : accessorTable h = ((words 1 ++ words 2 ++ words 3 ++ words 4).map fun w => ("$c" ++ String.ofList w ++ "r", path h w)) := by
  simp only [accessorTable, words, List.map_cons, List.map_nil, List.cons_append, List.nil_append]
  repeat' refine List.cons_eq_cons.2 ⟨?_, ?_⟩
  all_goals first
    | rfl
    | (refine Prod.ext (by dsimp only; decide) (funext fun v => ?_)
       simp [path, bind_assoc', caar, cadr, cdar, cddr, carProc, cdrProc, caarProc, cadrProc, cdarProc, cddrProc, caaarProc, caadrProc, cadarProc, caddrProc, cdaarProc, cdadrProc, cddarProc, cdddrProc, caaaarProc, caaadrProc, caadarProc, caaddrProc, cadaarProc, cadadrProc, caddarProc, cadddrProc, cdaaarProc, cdaadrProc, cdadarProc, cdaddrProc, cddaarProc, cddadrProc, cdddarProc, cddddrProc])

/-- C112.  The C function known as `$c`, letters, `r` returns the part of its argument the letters spell, in any heap, and is undefined exactly if some step does not start at a pair; the thirty names are those of one to four letters,
each once. -/
theorem C112_accessors (h : Heap) : (accessorTable h).map (·.1) = (words 1 ++ words 2 ++ words 3 ++ words 4).map (fun w => "$c" ++ String.ofList w ++ "r") ∧ ((accessorTable h).map (·.1)).Nodup ∧
    ∀ w ∈ words 1 ++ words 2 ++ words 3 ++ words 4, ∃ f, ("$c" ++ String.ofList w ++ "r", f) ∈ accessorTable h ∧ ∀ v, f v = match part h w v with | some u => .ok u | none => .ub := by
  rw [table_path]
  refine ⟨by rw [List.map_map]; rfl, by rw [List.map_map]; show (List.map (fun w => "$c" ++ String.ofList w ++ "r") _).Nodup; decide, fun w hw => ⟨path h w, List.mem_map.2 ⟨w, hw, rfl⟩, path_part h w⟩⟩

/-- C112.  `$set-car!` and `$set-cdr!` replace one half of one pair and leave everything else as it was; they are undefined exactly if their argument is no pair. -/
theorem C112_assign (h : Heap) (v x : V) : (pairAt h v = none → setCarProc h v x = .ub ∧ setCdrProc h v x = .ub) ∧
    ∀ p, pairAt h v = some p → ∃ h1 h2, setCarProc h v x = .ok h1 ∧ setCdrProc h v x = .ok h2 ∧ pairAt h1 v = some (x, p.2) ∧ pairAt h2 v = some (p.1, x) ∧
      (∀ u, u ≠ v → pairAt h1 u = pairAt h u ∧ pairAt h2 u = pairAt h u) ∧ ∀ u, vecAt h1 u = vecAt h u ∧ vecAt h2 u = vecAt h u := by
  cases v with
  | ptr a =>
    simp only [pairAt, setCarProc, setCdrProc, setCar, setCdr]
    cases ha : h[a]? with
    | none => simp
    | some o =>
      have hl : a < h.length := (List.getElem?_eq_some_iff.1 ha).1
      cases o with
      | vec es => simp
      | pair b d =>
        refine ⟨by simp, ?_⟩
        rintro _ ⟨rfl⟩
        refine ⟨_, _, rfl, rfl, by simp [hl], by simp [hl], ?_, ?_⟩
        · intro u hu
          cases u with
          | ptr c =>
            have : a ≠ c := fun e => hu (by rw [e])
            simp [List.getElem?_set_ne this]
          | _ => simp
        · intro u
          cases u with
          | ptr c =>
            by_cases e : a = c
            · subst e
              have hg : h[a] = .pair b d := by rw [List.getElem?_eq_getElem hl] at ha; exact Option.some.inj ha
              simp [vecAt, hl, hg]
            · simp [vecAt, List.getElem?_set_ne e]
          | _ => simp [vecAt]
  | _ => simp [pairAt, setCarProc, setCdrProc, setCar, setCdr]

/-- In a cyclic list `$cddddr` goes round. -/
example : part [.pair (.atom 1) (.ptr 1), .pair (.atom 2) (.ptr 0)] "dddd".toList (.ptr 0) = some (.ptr 0) ∧ part [.pair (.atom 1) (.ptr 1), .pair (.atom 2) (.ptr 0)] "add".toList (.ptr 1) = some (.atom 2) ∧
    part [.pair (.atom 1) .null] "ad".toList (.ptr 0) = none := by decide

end Minim.LH
