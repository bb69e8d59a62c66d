import Verif.PassFile
import Verif.LibCode
import Verif.Scope

set_option autoImplicit false

/-!
# The boot file (C111)

gen-boot.min: the definitions of the modules of the library are written into one file, boot.min.  Forms are data (`syntax->datum` of what `read/module` returns); the text of a datum in the file is the subject of C36.
-/

namespace Minim.GenBoot

open Minim.Sx Minim.Core Minim.Jit

/-! ### The code -/

/-- The elements of a list, if the datum is one (modelling device). -/
def elems : X → Option (List X)
  | .null => some []
  | .cons a d => (elems d).map (a :: ·)
  | _ => none

/-- `first` and `second` (list.min:26-43): an error unless the datum is a list with enough elements. -/
def nth (n : Nat) (d : X) : Res X := match elems d with
  | some l => match l[n]? with
    | some x => .ok x
    | none => .err
  | none => .err

/-- `((_-form? form-name) expr)` (gen-boot.min:34-38): a pair that begins with the identifier. -/
def isForm (name : Sym) : X → Bool
  | .cons (.sym s) _ => decide (s = name)
  | _ => false

/-- The procedure mapped over the forms (gen-boot.min:40-42): the first name the form defines, and the form. -/
def entries : List X → Res (List (X × X))
  | [] => .ok []
  | d :: ds => do
    let xs ← nth 1 d
    let x ← nth 0 xs
    let r ← entries ds
    .ok ((x, d) :: r)

/-- `module-definitions` (gen-boot.min:33-44). -/
def moduleDefinitions (exprs : List X) : Res (List (X × X)) := entries (exprs.filter (isForm .defineValues))

/-- `write-module-definitions` (gen-boot.min:46-55), once the module is read: the data written, one per line. -/
def moduleData (exclude : List X) (exprs : List X) : Res (List X) := do
  let defs ← moduleDefinitions exprs
  .ok ((defs.filter (fun p => !decide (p.1 ∈ exclude))).map (·.2))

/-- The loop of `main` over the modules (gen-boot.min:75-79): what is in the file in the end, and whether the loop ends.  `read` is `read/module`. -/
def writeAll (read : String → Res (List X)) : List (String × List X) → List X × Res Unit
  | [] => ([], .ok ())
  | (path, exclude) :: rest => match (do let exprs ← read path; moduleData exclude exprs) with
    | .ok ds => (ds ++ (writeAll read rest).1, (writeAll read rest).2)
    | .err => ([], .err)
    | .ub => ([], .ub)
    | .oof => ([], .oof)

/-- `boot-info` (gen-boot.min:12-22); no definitions are excluded. -/
def bootInfo : List (String × List X) :=
  [("private/list.min", []), ("private/path.min", []), ("private/generics.min", []), ("private/record.min", []), ("private/set.min", []), ("private/string.min", []), ("private/stx.min", []), ("expander.min", []),
    ("module.min", []), ("read.min", [])]

/-- `main` (gen-boot.min:61-80): the file that is opened for writing, if any, its content, and whether the program ends.  The file is opened, and so emptied, before the modules are read.  `read base path` reads the
module of this path in the directory `base`. -/
def main (read : String → String → Res (List X)) (args : List String) : Option (String × List X) × Res Unit := match args with
  | [_, base, fname] => (some (fname, (writeAll (read base) bootInfo).1), (writeAll (read base) bootInfo).2)
  | _ => (none, .err)

/-! ### Lemmas -/

/-- Specification: is the form a definition? -/
def isDef : E → Bool
  | .define _ _ => true
  | _ => false

/-- Specification: definitions define something, and no variable named `define-values` is called. -/
def Plain : E → Prop
  | .define xs _ => xs ≠ []
  | .app (.var x) _ => x ≠ .defineValues
  | _ => True

theorem elems_ofList : ∀ l : List X, elems (ofList l) = some l
  | [] => rfl
  | x :: l => by simp [ofList, elems, elems_ofList l]

theorem isForm_enc {e : E} (h : Plain e) : isForm .defineValues (enc e) = isDef e := by
  cases e with
  | app f args =>
    cases f with
    | var x => simpa [enc, isForm, isDef, Plain] using h
    | lit _ | quote _ | quoteSyntax _ | unbound | define _ _ | set _ _ | ite _ _ _ | letv _ _ | letrecv _ _ | lam _ _ | clam _ | begin _ | app _ _ | mvcall _ _ | mvlet _ _ _ | mvvals _ => simp [enc, isForm, isDef, ofList]
  | define xs e => simp [enc, isForm, isDef, ofList]
  | var _ | lit _ => rfl
  | quote _ | quoteSyntax _ | unbound | set _ _ | ite _ _ _ | letv _ _ | letrecv _ _ | lam _ _ | clam _ | begin _ | mvcall _ _ | mvlet _ _ _ | mvvals _ => simp [enc, isForm, isDef, ofList]

theorem filter_enc : ∀ {es : List E}, (∀ e ∈ es, Plain e) → (es.map enc).filter (isForm .defineValues) = (es.filter isDef).map enc
  | [], _ => rfl
  | e :: es, h => by
    rw [List.map_cons, List.filter_cons, List.filter_cons, isForm_enc (h e (.head _)), filter_enc fun e he => h e (.tail _ he)]
    split <;> rfl

theorem entries_enc : ∀ {es : List E}, (∀ e ∈ es, Plain e ∧ isDef e = true) → ∃ r, entries (es.map enc) = .ok r ∧ r.map (·.2) = es.map enc
  | [], _ => ⟨[], rfl, rfl⟩
  | e :: es, h => by
    obtain ⟨r, h1, h2⟩ := entries_enc (es := es) fun e he => h e (.tail _ he)
    obtain ⟨hp, hd⟩ := h e (.head _)
    cases e with
    | define xs e =>
      cases xs with
      | nil => exact absurd rfl hp
      | cons x xs =>
        refine ⟨(.sym x, enc (.define (x :: xs) e)) :: r, ?_, by simp [h2]⟩
        have a : nth 1 (enc (.define (x :: xs) e)) = .ok (ids (x :: xs)) := by rw [enc, nth, elems_ofList]; rfl
        have b : nth 0 (ids (x :: xs)) = .ok (.sym x) := by rw [ids, nth, elems_ofList]; rfl
        rw [List.map_cons, entries, a]
        simp only [Res.ok_bind, b, h1]
    | _ => cases hd

theorem moduleData_enc {es : List E} (h : ∀ e ∈ es, Plain e) : moduleData [] (es.map enc) = .ok ((es.filter isDef).map enc) := by
  rw [moduleData, moduleDefinitions, filter_enc h]
  obtain ⟨r, h1, h2⟩ := entries_enc (es := es.filter isDef) fun e he => ⟨h e (List.mem_filter.1 he).1, (List.mem_filter.1 he).2⟩
  rw [h1]
  simp [h2]

theorem writeAll_enc {read : String → Res (List X)} {m : String → List E} : ∀ {info : List (String × List X)}, (∀ p ∈ info, p.2 = [] ∧ read p.1 = .ok ((m p.1).map enc) ∧ ∀ e ∈ m p.1, Plain e) →
    writeAll read info = (((info.map fun p => m p.1).flatten.filter isDef).map enc, .ok ())
  | [], _ => rfl
  | (path, ex) :: rest, h => by
    obtain ⟨rfl, h1, h2⟩ := h (path, ex) (.head _)
    rw [writeAll, h1]
    simp only [Res.ok_bind, moduleData_enc h2, writeAll_enc fun p hp => h p (.tail _ hp)]
    simp

section
variable {P : Prims}

/-- Specification: evaluation of the form changes no variable that exists. -/
def Idle (P : Prims) (e : E) : Prop := ∀ σ vs σ', Evs P REnv.empty e σ vs σ' → σ.cells <+: σ'.cells ∧ σ'.globs = σ.globs

theorem SR.grow {K : Kn} {F : Sym → Prop} {w : W} {σ σ1 σ2 : RS} (h : SR K F w σ σ1) (hc : σ1.cells <+: σ2.cells) (hg : σ2.globs = σ1.globs) : SR K F w σ σ2 where
  len := h.len
  nodup := h.nodup
  cell i x j hw := by
    have hj := h.lt j (List.mem_map.2 ⟨(x, j), List.mem_of_getElem? hw, rfl⟩)
    obtain ⟨t, ht⟩ := hc
    rw [← ht, List.getElem?_append_left hj]
    exact h.cell i x j hw
  lt j hj := Nat.lt_of_lt_of_le (h.lt j hj) hc.length_le
  glob x := by rw [hg]; exact h.glob x
  values := h.values
  cwv := h.cwv

theorem evs_det {ρ : REnv} {e : E} {σ σ1 σ2 : RS} {vs ws : List RV} (h : Evs P ρ e σ vs σ1) (h' : Evs P ρ e σ ws σ2) : vs = ws ∧ σ1 = σ2 := by
  obtain ⟨n, h⟩ := h
  obtain ⟨m, h'⟩ := h'
  have a := ev_le (Nat.le_max_left n m) h
  have b := ev_le (Nat.le_max_right n m) h'
  rw [a] at b
  simpa using b

/-- What is evaluated, and what the boot file contains of it: idle forms may be missing. -/
inductive Sub (P : Prims) : List E → List E → Prop where
  | nil : Sub P [] []
  | keep {e : E} {es fs : List E} : Sub P es fs → Sub P (e :: es) (e :: fs)
  | drop {e : E} {es fs : List E} : Idle P e → Sub P es fs → Sub P es (e :: fs)

theorem Sub.refl : ∀ es : List E, Sub P es es
  | [] => .nil
  | _ :: es => .keep (Sub.refl es)

theorem Sub.append {as bs cs ds : List E} (h : Sub P as bs) (h' : Sub P cs ds) : Sub P (as ++ cs) (bs ++ ds) := by
  induction h with
  | nil => exact h'
  | keep _ ih => exact .keep ih
  | drop hi _ ih => exact .drop hi ih

theorem Sub.filter : ∀ {es : List E}, (∀ e ∈ es, isDef e = false → Idle P e) → Sub P (es.filter isDef) es
  | [], _ => .nil
  | e :: es, h => by
    have ih := Sub.filter fun e he => h e (.tail _ he)
    rw [List.filter_cons]
    split
    · exact .keep ih
    · rename_i hd
      exact .drop (h e (.head _) (by simpa using hd)) ih

theorem sub_runs {K : Kn} {F : Sym → Prop} (hN : Names K F) {es fs : List E} (h : Sub P es fs) : ∀ {n m : Nat} {w : W} {σ σ1 τ τ1 : RS} {vss wss : List (List RV)}, WfL K F es → SR K F w σ τ →
    runs P n es σ = .ok (vss, σ1) → runs P m fs τ = .ok (wss, τ1) → ∃ w1, SR K F w1 σ1 τ1 := by
  induction h with
  | nil =>
    intro n m w σ σ1 τ τ1 vss wss _ hs h1 h2
    cases h1
    cases h2
    exact ⟨w, hs⟩
  | @keep e es fs _ ih =>
    intro n m w σ σ1 τ τ1 vss wss hw hs h1 h2
    rw [WfL] at hw
    rw [runs] at h1 h2
    simp only [Res.bind_eq_ok] at h1 h2
    obtain ⟨⟨vs, σa⟩, a1, ⟨vss1, σb⟩, a2, a3⟩ := h1
    obtain ⟨⟨us, τa⟩, b1, ⟨wss1, τb⟩, b2, b3⟩ := h2
    cases a3
    cases b3
    have one : runs P n [e] σ = .ok ([vs], σa) := by rw [runs, a1]; rfl
    obtain ⟨k, vss', τa', w1, c1, c2, _⟩ := prog_step hN one (TrL.refl K F [e]) ⟨hw.1, trivial⟩ hs
    rw [runs] at c1
    simp only [Res.bind_eq_ok] at c1
    obtain ⟨⟨us', τc⟩, d1, ⟨_, τd⟩, d2, d3⟩ := c1
    cases d2
    cases d3
    obtain ⟨_, rfl⟩ := evs_det ⟨m, b1⟩ ⟨k, d1⟩
    exact ih hw.2 c2.sr a2 b2
  | @drop e es fs hi _ ih =>
    intro n m w σ σ1 τ τ1 vss wss hw hs h1 h2
    rw [runs] at h2
    simp only [Res.bind_eq_ok] at h2
    obtain ⟨⟨us, τa⟩, b1, ⟨wss1, τb⟩, b2, b3⟩ := h2
    cases b3
    obtain ⟨hc, hg⟩ := hi _ _ _ ⟨m, b1⟩
    exact ih hw (SR.grow hs hc hg) h1 b2

end

/-! ### The property -/

/-- Specification: the forms of the modules, one module after the other. -/
def modules (m : String → List E) : List E := (bootInfo.map fun p => m p.1).flatten

/-- C111 (partial).  gen-boot.min writes exactly the definitions of the modules, in order.  Suppose the forms that are no definitions change no variable.  Then a program run after the boot file has the values, and leaves the
values in the variables, that it has after the modules, evaluated one after the other at top level, if both runs end without error (`pre`: what was loaded before, the prelude).

Missing: forms with effects, and modules whose variables are not different (refuted below). -/
theorem C111_partial (P : Prims) (read : String → String → Res (List X)) (m : String → List E) (name base fname : String) (hread : ∀ p ∈ bootInfo, read base p.1 = .ok ((m p.1).map enc))
    (hplain : ∀ p ∈ bootInfo, ∀ e ∈ m p.1, Plain e) :
    main read [name, base, fname] = (some (fname, ((modules m).filter isDef).map enc), .ok ()) ∧
    ∀ (pre post : List E) (σ σ1 σ2 τ1 τ2 : RS) (n : Nat) (us us' vss wss : List (List RV)), (∀ e ∈ modules m, isDef e = false → Idle P e) → WfL (stdK fun _ => False) NoF (pre ++ (modules m).filter isDef) →
      WfL (stdK fun _ => False) NoF post → Initial σ →
      runs P n (pre ++ (modules m).filter isDef) σ = .ok (us, σ1) → runs P n post σ1 = .ok (vss, σ2) → runs P n (pre ++ modules m) σ = .ok (us', τ1) → runs P n post τ1 = .ok (wss, τ2) →
      List.Forall₂ (List.Forall₂ SameV) vss wss ∧ ∀ x, ORel SameV (σ2.globs x) (τ2.globs x) := by
  constructor
  · rw [main, writeAll_enc (m := m)]
    · rfl
    · intro p hp
      refine ⟨?_, hread p hp, hplain p hp⟩
      revert p
      decide
  · intro pre post σ σ1 σ2 τ1 τ2 n us us' vss wss hi hw hw2 h0 h1 h2 h3 h4
    obtain ⟨w, hs⟩ := sub_runs (stdK_names' _) ((Sub.refl pre).append (Sub.filter hi)) hw h0.sr h1 h3
    obtain ⟨k, vss', τ', w1, c1, c2, c3⟩ := prog_step (stdK_names' _) h2 (TrL.refl _ _ post) hw2 hs
    have a := runs_le (Nat.le_max_left n k) h4
    rw [runs_le (Nat.le_max_right n k) c1] at a
    simp only [Res.ok.injEq, Prod.mk.injEq] at a
    obtain ⟨rfl, rfl⟩ := a
    exact ⟨c3.imp fun _ _ h => h.imp fun _ _ => VRel.mono fun _ _ => CR.same, fun x => (c2.sr.glob x).mono fun _ _ => VRel.mono fun _ _ => CR.same⟩

/-- `(define-values (x) 1) 3`, as the first module. -/
def bootDemo (path : String) : List E := if path = "private/list.min" then [.define [.user 50] (.lit (.const 1)), .lit (.const 3)] else []

/-- The hypotheses can hold: the second form is no definition and changes nothing; `x` is 1 after the boot file and after the modules. -/
example : (∀ p ∈ bootInfo, ∀ e ∈ bootDemo p.1, Plain e) ∧ (∀ e ∈ modules bootDemo, isDef e = false → Idle demoPrims e) ∧ (modules bootDemo).filter isDef ≠ modules bootDemo ∧
    WfL (stdK fun _ => False) NoF ([] ++ (modules bootDemo).filter isDef) ∧ WfL (stdK fun _ => False) NoF [.var (.user 50)] ∧ Initial passStore ∧
    (∃ us σ1 σ2, runs demoPrims 9 ([] ++ (modules bootDemo).filter isDef) passStore = .ok (us, σ1) ∧ runs demoPrims 9 [.var (.user 50)] σ1 = .ok ([[.lit (.const 1)]], σ2)) ∧
    ∃ us τ1 τ2, runs demoPrims 9 ([] ++ modules bootDemo) passStore = .ok (us, τ1) ∧ runs demoPrims 9 [.var (.user 50)] τ1 = .ok ([[.lit (.const 1)]], τ2) := by
  have hm : modules bootDemo = [.define [.user 50] (.lit (.const 1)), .lit (.const 3)] := by simp [modules, bootInfo, bootDemo]
  rw [hm]
  refine ⟨?_, ?_, ?_, ?_, ?_, passStore_initial, ⟨_, _, _, rfl, rfl⟩, ⟨_, _, _, rfl, rfl⟩⟩
  · intro p _ e he
    unfold bootDemo at he
    split at he
    · rcases List.mem_cons.1 he with rfl | he
      · simp [Plain]
      · rcases List.mem_cons.1 he with rfl | he
        · trivial
        · cases he
    · cases he
  · intro e he hd
    rcases List.mem_cons.1 he with rfl | he
    · cases hd
    · rcases List.mem_cons.1 he with rfl | he
      · rintro σ vs σ' ⟨n, h⟩
        cases n with
        | zero => cases h
        | succ n =>
          simp only [ev, Res.ok.injEq, Prod.mk.injEq] at h
          obtain ⟨_, rfl⟩ := h
          exact ⟨List.prefix_rfl, rfl⟩
      · cases he
  · simp [isDef]
  · show WfL _ _ [.define [.user 50] (.lit (.const 1))]
    simp [WfL, Wf, stdK, NoF]
  · simp [WfL, Wf, NoF]

/-! ### Where it goes wrong -/

/-- `(define-values (x) 1) (set! x 2)`. -/
def effectDemo : List E := [.define [.user 50] (.lit (.const 1)), .set (.user 50) (.lit (.const 2))]

/-- C111 (refuted).  A form that is no definition is left out, whatever it does: the variable of this module is 2 after the module, and 1 after the boot file. -/
theorem C111_negated_effect : moduleData [] (effectDemo.map enc) = .ok ((effectDemo.take 1).map enc) ∧
    (∃ vss σ, runs demoPrims 9 effectDemo passStore = .ok (vss, σ) ∧ σ.globs (.user 50) = some (.lit (.const 2))) ∧
    ∃ vss σ, runs demoPrims 9 (effectDemo.take 1) passStore = .ok (vss, σ) ∧ σ.globs (.user 50) = some (.lit (.const 1)) :=
  ⟨rfl, ⟨_, _, rfl, rfl⟩, ⟨_, _, rfl, rfl⟩⟩

/-- Two modules with a variable of the same name each, used by a procedure of the first: `(define-values (h) 1) (define-values (f) (lambda () h))` and `(define-values (h) 2)`. -/
def clashDemo : List E × List E := ([.define [.user 50] (.lit (.const 1)), .define [.user 51] (.lam ⟨[], none⟩ [.var (.user 50)])], [.define [.user 50] (.lit (.const 2))])

/-- C111 (refuted).  The modules share one environment in the boot file: the procedure of the first module returns the variable of the second. -/
theorem C111_negated_clash : (∃ us σ, runs demoPrims 9 (clashDemo.1 ++ [.app (.var (.user 51)) []]) passStore = .ok (us ++ [[.lit (.const 1)]], σ)) ∧
    ∃ us σ, runs demoPrims 9 (clashDemo.1 ++ clashDemo.2 ++ [.app (.var (.user 51)) []]) passStore = .ok (us ++ [[.lit (.const 2)]], σ) :=
  ⟨⟨[[.void], [.void]], _, rfl⟩, ⟨[[.void], [.void], [.void]], _, rfl⟩⟩

/-- C111 (refuted).  If a module cannot be read the program ends with an error, and the file that was there before is gone. -/
theorem C111_negated_lost : ∃ read, main read ["gen-boot.min", "lib", "boot.min"] = (some ("boot.min", []), .err) := ⟨fun _ _ => .err, rfl⟩

/-- A form that defines no name stops the program: `(define-values () (values))`. -/
theorem C111_negated_empty : moduleData [] [enc (.define [] (.app (.var .values) []))] = .err := rfl

/-! ### The file that is there -/

/-- C111.  Every form of boot.min is a definition and defines something. -/
theorem C111_text_definitions : Lib.boot.all isDef = true ∧ ∀ e ∈ Lib.boot, Plain e := by
  have h : Lib.boot.all (fun e => match e with | .define (_ :: _) _ => true | _ => false) = true := by decide +kernel
  refine ⟨List.all_eq_true.2 fun e he => ?_, fun e he => ?_⟩ <;>
  · have := List.all_eq_true.1 h e he
    split at this
    · simp [isDef, Plain]
    · cases this

/-- C111.  No name is defined twice in boot.min: modules do not take variables from each other. -/
theorem C111_text_names : (defines Lib.boot).Nodup := by decide +kernel

/-- C111.  Two names of prelude.min are defined again by boot.min. -/
theorem C111_text_prelude : (defines Lib.boot).filter (fun x => decide (x ∈ defines Lib.prelude)) = [Lib.S.load, Lib.S.read] := by decide +kernel

/-- C111 (refuted).  The methods of the record type `set` (set.min:46-53) are missing in boot.min: `define-record-type` makes them expressions (record.min:221-235), and boot.min uses none of the procedures called there; one it defines. -/
theorem C111_negated_methods : lacksL Lib.S.«record-type-equal-procedure» Lib.boot = true ∧ lacksL Lib.S.«record-type-hash-procedure» Lib.boot = true ∧ lacksL Lib.S.«record-writer» Lib.boot = true ∧
    Lib.boot.filter (fun e => !lacks Lib.S.«record-type-add-generic!» e) = [Lib.boot_35] := by
  refine ⟨by decide +kernel, by decide +kernel, by decide +kernel, by rfl⟩

end Minim.GenBoot
