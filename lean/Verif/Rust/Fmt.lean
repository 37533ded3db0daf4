import Verif.Rust.Lang
/-!
# `core::fmt`

A formatter is where text goes.  It takes pieces, and may refuse one, which is an error that the functions of the text hand on.
-/
namespace Verif.Rust

/-- `core::fmt::Error`. -/
inductive fmt.Error where
  | mk

/-- `core::fmt::Result`. -/
abbrev fmt.Result : Type := Except fmt.Error Unit

/-- `core::fmt::Formatter`: the pieces it has taken, and which one it will refuse. -/
structure fmt.Formatter where
  pieces : List String
  refuses : Nat → Bool

/-- The text that has been written. -/
def fmt.Formatter.text (f : fmt.Formatter) : String := String.join f.pieces

/-- `Formatter::write_str` - crate `core`; called at hc-256/src/lib.rs:124, 130. -/
def fmt.Formatter.write_str (_tgt : Target) (f : fmt.Formatter) (s : String) : Except Panic (fmt.Result × fmt.Formatter) :=
  if f.refuses f.pieces.length then .ok (.error .mk, f) else .ok (.ok (), { f with pieces := f.pieces ++ [s] })

/-- `core::fmt::Display`. -/
class Display (α : Type) where
  text : α → String

/-- Numbers in decimal. -/
instance {tgt : Target} : Display (Usize tgt) := ⟨fun n => toString n.val⟩

/-- The pieces of a format string: `{}` is the next argument, `{{` and `}}` are braces.  (`rustc` rejects other strings.) -/
def fmtPieces : List Char → List Char → List String → Option (List String)
  | [], cur, [] => some [String.ofList cur.reverse]
  | [], _, _ :: _ => none
  | '{' :: '{' :: l, cur, args => fmtPieces l ('{' :: cur) args
  | '}' :: '}' :: l, cur, args => fmtPieces l ('}' :: cur) args
  | '{' :: '}' :: l, cur, a :: args => (fmtPieces l [] args).map fun r => String.ofList cur.reverse :: a :: r
  | c :: l, cur, args => if c = '{' ∨ c = '}' then none else fmtPieces l (c :: cur) args

/-- Pieces one after another, until one is refused. -/
def writePieces (tgt : Target) : List String → fmt.Formatter → Except Panic (fmt.Result × fmt.Formatter)
  | [], f => .ok (.ok (), f)
  | s :: l, f => do
    match ← f.write_str tgt s with
    | (.ok _, f) => writePieces tgt l f
    | r => return r

/-- `write!(f, s, args…)` - crate `core`; called at chacha20/src/lib.rs:208-213, chacha20/src/rng.rs:189. -/
def writeFmt (tgt : Target) (f : fmt.Formatter) (s : String) (args : List String) : Except Panic (fmt.Result × fmt.Formatter) :=
  match fmtPieces s.toList [] args with
  | some l => writePieces tgt l f
  | none => .error .assertion

end Verif.Rust
