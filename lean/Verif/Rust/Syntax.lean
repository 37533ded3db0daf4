import Lean.Data.Name
import Lean.Hygiene
import Lean.Parser.Command
import Verif.Rust.Trace
import Verif.Rust.Fmt
/-!
# Rust text as Lean definitions

`rust! fn …`, `rust! impl … { … }`, `rust! const …` and `rust! struct …` take Rust text and define the Lean function, constant or
structure it means.  The translation is a syntactic one, statement by statement, into `do` notation over `Except Panic`; what the operations mean is in
`Verif.Rust.Lang`.

* Every function gets an argument `tgt : Target`.  A function with `&mut` parameters returns its result together with
  the final values of these parameters, in order; the caller writes them back.
* Operands are evaluated from left to right, each operator that can panic being one step.  In an assignment the right-hand side comes
  first.
* A method call `x.m(…)` is the Lean function `m` in the namespace of the type of `x`.  The methods of integers, slices and
  iterators that occur are listed in `pureMethod`, `method` and `iterOf`.
* Method calls change their receiver when the method is one of `mutMethods` (Lean would reject the definition if this list were wrong).
* `for` over an iterator with mutable items runs over the positions, binds the items, and writes them back at the end of each round.
-/
open Lean

namespace Verif.Rust

declare_syntax_cat rs (behavior := symbol)
declare_syntax_cat rs_ty
declare_syntax_cat rs_pat
declare_syntax_cat rs_stmt
declare_syntax_cat rs_seg
declare_syntax_cat rs_field
declare_syntax_cat rs_arm
declare_syntax_cat rs_block
declare_syntax_cat rs_param
declare_syntax_cat rs_gen
declare_syntax_cat rs_where
declare_syntax_cat rs_fn
declare_syntax_cat rs_fdecl
declare_syntax_cat rs_item

syntax (name := tyPath) ident ("::" ident)? : rs_ty
syntax (name := tyPath3) ident "::" ident "::" ident : rs_ty
syntax (name := tyApp) ident "<" rs_ty,* ">" : rs_ty
syntax (name := tyRef) "&" rs_ty : rs_ty
syntax (name := tyMut) "&" "mut" rs_ty : rs_ty
syntax (name := tyArr) "[" rs_ty ";" rs "]" : rs_ty
syntax (name := tySlice) "[" rs_ty "]" : rs_ty
syntax (name := tyTuple) "(" rs_ty,* ")" : rs_ty
syntax (name := tyQApp) ident "::" ident "<" rs_ty,* ">" : rs_ty
syntax (name := tyAssoc) ident ("::" ident)? "<" ident " = " rs_ty ">" : rs_ty
syntax (name := tyQual) "<" rs_ty ">" "::" ident : rs_ty
syntax (name := tyImpl) "impl" rs_ty : rs_ty
syntax (name := tyNum) num : rs_ty
syntax (name := tyAny) "_" : rs_ty

syntax (name := patId) ident : rs_pat
syntax (name := patMut) "mut" ident : rs_pat
syntax (name := patAny) "_" : rs_pat
syntax (name := patTuple) "(" rs_pat,* ")" : rs_pat
syntax (name := patArr) "[" rs_pat,* "]" : rs_pat

syntax (name := segId) ident : rs_seg
syntax (name := segFrom) "from" : rs_seg
syntax (name := segTy) "<" rs_ty,* ">" : rs_seg

syntax (name := fieldVal) ident ":" rs : rs_field
syntax (name := fieldPun) ident : rs_field

syntax (name := blk) "{" rs_stmt* "}" : rs_block

syntax:max (name := eNum) num : rs
syntax:max (name := eSuf) num noWs ident : rs
syntax:max (name := eStr) str : rs
syntax:max (name := ePath) ident ("::" rs_seg)* : rs
syntax:max (name := eParen) "(" rs ")" : rs
syntax:max (name := eTuple) "(" rs "," rs,* ")" : rs
syntax:max (name := eUnit) "(" ")" : rs
syntax:max (name := eArr) "[" rs,*,? "]" : rs
syntax:max (name := eRep) "[" rs ";" rs "]" : rs
syntax:22 (name := eStruct) ident ("::" "<" rs_ty,* ">")? "{" rs_field,*,? "}" : rs
syntax:max (name := eBlock) rs_block : rs
syntax:max (name := eUnsafe) "unsafe" rs_block : rs
syntax:max (name := eIf) "if" rs:31 rs_block ("else" rs)? : rs
syntax:max (name := eMatch) "match" rs:31 "{" rs_arm* "}" : rs
syntax:max (name := eAssert) "assert!" "(" rs,*,? ")" : rs
syntax:max (name := eAssertEq) "assert_eq!" "(" rs "," rs ")" : rs
syntax:max (name := eDebugAssertEq) "debug_assert_eq!" "(" rs "," rs ")" : rs
syntax:max (name := eMatches) "matches!" "(" rs:56 "," num " | " num " | " num ")" : rs
syntax:max (name := eWrite) "write!" "(" rs "," rs,*,? ")" : rs
syntax:max (name := eConcat) "concat!" "(" rs,* ")" : rs
syntax:max (name := eStringify) "stringify!" "(" rs_ty ")" : rs
syntax:max (name := eUnreachable) "unreachable!" "(" ")" : rs
syntax:max (name := eCall) rs:max "(" rs,*,? ")" : rs
syntax:max (name := eIdx) rs:max "[" rs "]" : rs
syntax:max (name := eField) rs:max "." ident ("::" "<" rs_ty,* ">")? : rs
syntax:max (name := eProj) rs:max "." num : rs
syntax:95 (name := eRef) "&" rs:95 : rs
syntax:95 (name := eRefMut) "&" "mut" rs:95 : rs
syntax:95 (name := eRawMut) "&" &"raw" "mut" rs:95 : rs
syntax:95 (name := eDeref) "*" rs:95 : rs
syntax:90 (name := eAs) rs:90 "as" rs_ty : rs
syntax:80 (name := eMul) rs:80 " * " rs:81 : rs
syntax:80 (name := eDiv) rs:80 " / " rs:81 : rs
syntax:80 (name := eRem) rs:80 " % " rs:81 : rs
syntax:75 (name := eAdd) rs:75 " + " rs:76 : rs
syntax:75 (name := eSub) rs:75 " - " rs:76 : rs
syntax:70 (name := eShl) rs:70 " << " rs:71 : rs
syntax:70 (name := eShr) rs:70 " >> " rs:71 : rs
syntax:65 (name := eAnd) rs:65 " & " rs:66 : rs
syntax:60 (name := eXor) rs:60 " ^ " rs:61 : rs
syntax:55 (name := eOr) rs:55 " | " rs:56 : rs
syntax:50 (name := eEq) rs:51 " == " rs:51 : rs
syntax:50 (name := eNe) rs:51 " != " rs:51 : rs
syntax:50 (name := eLt) rs:51 " < " rs:51 : rs
syntax:50 (name := eGt) rs:51 " > " rs:51 : rs
syntax:50 (name := eLe) rs:51 " <= " rs:51 : rs
syntax:45 (name := eLAnd) rs:45 " && " rs:46 : rs
syntax:40 (name := eLOr) rs:40 " || " rs:41 : rs
syntax:30 (name := eRange) rs:31 ".." rs:31 : rs
syntax:30 (name := eRangeTo) ".." rs:31 : rs
syntax:30 (name := eRangeFrom) rs:31 ".." : rs
syntax:25 (name := eClosure) "|" rs_pat,* "|" rs:20 : rs
syntax:20 (name := eAssign) rs:21 " = " rs:20 : rs
syntax:20 (name := eAssignXor) rs:21 " ^= " rs:20 : rs
syntax:20 (name := eAssignAdd) rs:21 " += " rs:20 : rs

syntax (name := armLit) num "=>" rs (",")? : rs_arm
syntax (name := armAny) "_" "=>" rs (",")? : rs_arm

syntax (name := sLet) "let" ("mut")? rs_pat (":" rs_ty)? " = " rs ";" : rs_stmt
syntax (name := sFor) "for" rs_pat " in " rs:30 rs_block : rs_stmt
syntax (name := sReturn) "return" (rs)? ";" : rs_stmt
syntax (name := sConst) "const" "_" ":" rs_ty " = " rs ";" : rs_stmt
syntax (name := sUse) "use" ident ("::" ident)* ";" : rs_stmt
syntax (name := sExpr) rs (";")? : rs_stmt

syntax (name := pSelfRef) "&" ident : rs_param
syntax (name := pSelfMut) "&" "mut" ident : rs_param
syntax (name := pTyped) ("mut")? ident ":" rs_ty : rs_param

syntax (name := gTy) ident ":" ident : rs_gen
syntax (name := gBare) ident : rs_gen
syntax (name := gConst) "const" ident ":" ident : rs_gen
syntax (name := whereB) ident ":" rs_ty : rs_where

syntax (name := fnDef) (docComment)? ("pub" ("(" ident ")")?)? ("unsafe")? "fn" ident ("<" rs_gen,* ">")? "(" rs_param,*,? ")" ("->" rs_ty)?
  ("where" rs_where,*,?)? rs_block : rs_fn

syntax (name := iFn) rs_fn : rs_item
syntax (name := iConst) "const" ident ":" rs_ty " = " rs ";" : rs_item
syntax (name := fieldDecl) ("pub" ("(" ident ")")?)? ident ":" rs_ty : rs_fdecl

syntax (name := iStruct) ("pub")? "struct" ident ("<" rs_gen,* ">")? "{" rs_fdecl,*,? "}" : rs_item
syntax (name := iTuple) ("pub")? "struct" ident ("<" rs_gen,* ">")? "(" rs_ty ")" ";" : rs_item
syntax (name := iImpl) "impl" ("<" rs_gen,* ">")? atomic(rs_ty "for")? rs_ty "{" rs_fn* "}" : rs_item
syntax (name := rustCmd) (docComment)? "rust!" rs_item : command
syntax (name := rustTracedCmd) (docComment)? "rust_traced!" rs_item : command

/-- A place: a variable, or a field, element or slice of a place. -/
inductive Place where
  | var (x : Ident)
  | field (p : Place) (f : Ident)
  | index (p : Place) (i : Term)
  | slice (p : Place) (a b : Term)
  /-- a struct `c(&mut p)` with one field -/
  | wrap (c : Ident) (p : Place)
  | temp (t : Term)
  deriving Inhabited

/-- State of the translation of one function. -/
structure St where
  /-- steps emitted so far -/
  elems : Array (TSyntax `doElem) := #[]
  /-- number of temporaries -/
  n : Nat := 0
  /-- variables that are mutable references -/
  refs : List Name := []
  /-- variables bound to iterators, with the text of the iterator -/
  alias : List (Name × Syntax) := []
  /-- variables split by `split_at_mut`, with the variables that hold their parts -/
  split : List (Name × List Name) := []
  /-- `Self` -/
  self : Option Term := none
  /-- pointers: the place they point into and, after a `cast`, the size of what they point at.  The variable holds the offset in bytes. -/
  ptrs : List (Name × Place × Option Term) := []
  /-- variables that stand for places -/
  places : List (Name × Place) := []
  /-- variables that got another name because theirs is that of a `&mut` parameter -/
  ren : List (Name × Name) := []
  /-- const parameters -/
  consts : List Name := []
  /-- `&mut` parameters -/
  params : List Name := []
  /-- translate into `Tr`, the computations that record what they do -/
  traced : Bool := false

abbrev M := StateT St MacroM

def err {α : Type} (ref : Syntax) (msg : String) : M α := liftM (m := MacroM) (Macro.throwErrorAt ref msg)

def push (d : TSyntax `doElem) : M Unit := modify fun s => { s with elems := s.elems.push d }

/-- Add a step.  In text that records, a plain assignment is a step of the monad too. -/
def emit (d : TSyntax `doElem) : M Unit := do
  if (← get).traced then
    match d with
    | `(doElem| let mut $x:ident := $v:term) => push (← `(doElem| let mut $x:ident ← pure $v:term))
    | `(doElem| let mut $x:ident : $ty := $v:term) => push (← `(doElem| let mut $x:ident : $ty ← pure $v:term))
    | `(doElem| let $x:ident := $v:term) => push (← `(doElem| let $x:ident ← pure $v:term))
    | `(doElem| let $x:ident : $ty := $v:term) => push (← `(doElem| let $x:ident : $ty ← pure $v:term))
    | `(doElem| $x:ident := $v:term) => push (← `(doElem| $x:ident ← pure $v:term))
    | _ => push d
  else push d

def fresh : M Ident := do
  let n := (← get).n
  modify fun s => { s with n := n + 1 }
  return mkIdent (Name.mkSimple s!"r{n}")

def tgtId : Ident := mkIdent `tgt

/-- A step that binds the result of a computation. -/
def step (t : Term) : M Term := do
  let x ← fresh
  emit (← `(doElem| let $x:ident ← $t:term))
  return x

/-- The steps emitted by `act`. -/
def collect {α : Type} (act : M α) : M (Array (TSyntax `doElem) × α) := do
  let saved := (← get).elems
  modify fun s => { s with elems := #[] }
  let a ← act
  let es := (← get).elems
  modify fun s => { s with elems := saved }
  return (es, a)

/-- Run `act` and forget the names it introduces. -/
def inScope {α : Type} (act : M α) : M α := do
  let s ← get
  let a ← act
  modify fun s' => { s' with refs := s.refs, alias := s.alias, split := s.split, ptrs := s.ptrs, places := s.places, ren := s.ren }
  return a

def doTerm (es : Array (TSyntax `doElem)) : M Term := `(do $[$es:doElem]*)

/-- The steps as a term of the monad. -/
def doTermIn (es : Array (TSyntax `doElem)) : M Term := do
  if (← get).traced then `((do $[$es:doElem]* : Verif.Rust.Tr _)) else doTerm es

/-- The name of a function of the text, or of its recording form. -/
def fnName (x : Name) : M Name := do
  if (← get).traced then return x.getPrefix ++ Name.mkSimple (x.getString! ++ "_tr") else return x

/-- Record a condition on which the control flow depends. -/
def condition (c : Term) : M Term := do
  if (← get).traced then step (← `(Verif.Rust.Tr.branch $c)) else return c

/-- The operations that are recorded. -/
def recorded : List (Name × Name) :=
  [`idx, `upd, `slice, `swap, `splitAt, `div, `rem, `fromFn].map fun x => (`Verif.Rust ++ x, `Verif.Rust.Tr ++ x)

/-- Replace the operations that are recorded. -/
def record (t : Term) : M Term := do
  if (← get).traced then
    return ⟨← t.raw.replaceM fun s => return if s.isIdent then (recorded.lookup s.getId.eraseMacroScopes).map fun x => (mkIdent x).raw else none⟩
  else return t

def isConstName (s : String) : Bool := s.all fun c => c.isUpper || c == '_' || c.isDigit

def startsUpper (n : Name) : Bool := (n.getString!.toList.head?.map Char.isUpper).getD false

def mutMethods : List Name :=
  [`prga, `next_state, `counter_update, `setup_iv, `next_block, `gen_word, `set_block_pos, `set_word_pos, `reset_and_skip, `gen_par_ks_blocks,
   `gen_ks_blocks, `rng_gen_par_ks_blocks, `write_par_ks_blocks, `unchecked_apply_keystream_inout, `next_word, `next_u64_from_u32, `fill_bytes,
   `set_stream, `gen_ks_block, `process_with_backend, `write_str, `increment_ctr, `gen_blocks_fullwidth, `gen_blocks_halfwidth]

/-- Intrinsics that load a register, with the type of the array they may be used on. -/
def loads : List (Name × Option Name) :=
  [(`_mm_loadu_si128, none), (`_mm_loadu_epi32, none), (`vld1q_u32, some `Verif.U32), (`vld1q_u8, some `Verif.U8)]

/-- Intrinsics that store a register. -/
def stores : List Name :=
  [`_mm_storeu_si128, `_mm_storeu_epi32, `_mm256_storeu_epi32, `_mm512_storeu_si512, `vst1q_u8, `vst1q_u64]

/-- Other intrinsics: functions without steps. -/
def isIntrinsic (x : Name) : Bool :=
  "_mm".isPrefixOf x.getString! ||
  [`vaddq_u32, `vaddq_u64, `veorq_u32, `vorrq_u32, `vshlq_n_u32, `vshrq_n_u32, `vextq_u32, `vqtbl1q_u8, `vrev32q_u16, `vgetq_lane_u32,
   `vreinterpretq_u32_u64, `vreinterpretq_u64_u32, `vreinterpretq_u8_u32, `vreinterpretq_u32_u8, `vreinterpretq_u32_u16, `vreinterpretq_u16_u32].contains x

/-- An iterator: its items by position. -/
inductive It where
  /-- items are elements of a list -/
  | elems (l : Term)
  /-- items are the elements of a place, mutable -/
  | elemsMut (p : Place)
  /-- chunks of `n` elements -/
  | chunks (l : Term) (n : Term) (exact : Bool)
  | chunksMut (p : Place) (n : Term)
  | range (a b : Term)
  | cycle (l : Term)
  | zip (a b : It)
  | enumerate (a : It)
  deriving Inhabited

/-- The name of a path segment (`from` is a keyword of Lean). -/
def segName (s : Syntax) : Name := if s.getKind == ``segFrom then `from else s[0].getId

def pathStx (cs : List Name) : Syntax := (mkNode ``ePath #[mkIdent (cs.foldl (· ++ ·) .anonymous), mkNullNode]).raw

def fieldStx (f : Syntax) (cs : List Name) : Syntax :=
  (mkNode ``eField #[f[0], f[1], mkIdent (cs.foldl (· ++ ·) .anonymous), mkNullNode]).raw

/-- `x.m(…)` and `x.m::<T>(…)`: receiver, method, type arguments, arguments. -/
def methodOf (stx : Syntax) : Option (Syntax × Name × Array Syntax × Array Syntax) :=
  if stx.getKind != ``eCall then none else
  let f := stx[0]
  let args := stx[2].getSepArgs
  match f.getKind with
  | ``ePath =>
    let cs := f[0].getId.components
    let segs := f[1].getArgs.map (·[1])
    if cs.length < 2 then none
    else if segs.isEmpty then some (pathStx cs.dropLast, cs.getLast!, #[], args)
    else if segs.size == 1 && segs[0]!.getKind == ``segTy then some (pathStx cs.dropLast, cs.getLast!, segs[0]![1].getSepArgs, args)
    else none
  | ``eField =>
    let cs := f[2].getId.components
    some (if cs.length == 1 then f[0] else fieldStx f cs.dropLast, cs.getLast!, if f[3].isNone then #[] else f[3][2].getSepArgs, args)
  | _ => none

/-- The name of the type constructor of a type. -/
def headName (t : Term) : Name := match t with
  | `($c:ident $_*) => c.getId
  | _ => t.raw.getId

/-- Paths into the module of a backend, which is a namespace; `soft` is the current one. -/
def backendPath (x : Name) (segs : List Syntax) : Option (Name × List Syntax) :=
  match x, segs with
  | `backends, m :: f :: rest => some (if segName m == `soft then segName f else segName m ++ segName f, rest)
  | _, _ => none

/-- `Array::<T, Un>::slice_as_chunks(l).0`: the number `n` and `l`. -/
def sliceAsChunks (stx : Syntax) : Option (Term × Syntax) :=
  let c := stx[0]
  if stx.getKind == ``eProj && c.getKind == ``eCall && c[0].getKind == ``ePath && c[0][0].getId == `Array && c[0][1].getNumArgs == 2 then
    let segs := c[0][1].getArgs.map (·[1])
    if segs[0]!.getKind == ``segTy && segName segs[1]! == `slice_as_chunks then
      let s := (segs[0]![1].getSepArgs[1]!)[0].getId.getString!
      some (Syntax.mkNumLit (s.drop 1).toString, c[2].getSepArgs[0]!)
    else none
  else none

/-- Is this an expression of pointer type? -/
partial def isPtr (stx : Syntax) : M Bool := do
  match stx.getKind with
  | ``ePath => return stx[1].getNumArgs == 0 && ((← get).ptrs.lookup stx[0].getId).isSome
  | ``eParen => isPtr stx[1]
  | ``eRawMut => return true
  | ``eCall => match methodOf stx with
    | some (_, `as_ptr, _, _) => return true
    | some (_, `as_mut_ptr, _, _) => return true
    | some (r, `cast, _, _) => isPtr r
    | some (r, `add, _, _) => isPtr r
    | some (r, `offset, _, _) => isPtr r
    | _ => return false
  | _ => return false

/-- The variable to which a name is to be bound. -/
def bindName (x : Name) : M Ident := do
  modify fun s => { s with ren := s.ren.filter (·.1 != x), places := s.places.filter (·.1 != x), ptrs := s.ptrs.filter (·.1 != x) }
  if (← get).params.contains x then
    let n := (← get).n
    let y := Name.mkSimple s!"{x.getString!}{n}"
    modify fun s => { s with n := n + 1, ren := (x, y) :: s.ren }
    return mkIdent y
  else return mkIdent x

set_option maxHeartbeats 1000000 in
mutual

partial def trTy (stx : Syntax) : M Term := do
  match stx.getKind with
  | ``tyPath =>
    let n := stx[0].getId
    if !stx[1].isNone then
      let m := stx[1][1].getId
      if n == `Self then
        match (← get).self with
        | some t => if m == `Counter then return ⟨t.raw.setArg 0 (mkIdent (headName t ++ m))⟩ else return mkIdent (headName t ++ m)
        | none => err stx "Self"
      else if n == `fmt then return mkIdent (n ++ m)
      else
      return mkIdent (`Variant ++ m) |> fun f => Unhygienic.run `($f $(mkIdent n))
    match n with
    | `u8 => `(Verif.U8)
    | `u16 => `(Verif.U16)
    | `u32 => `(Verif.U32)
    | `u64 => `(Verif.U64)
    | `u128 => `(Verif.U128)
    | `i32 => `(Verif.U32)
    | `i64 => `(Verif.U64)
    | `bool => `(Bool)
    | `Key | `Iv | `Nonce | `XNonce | `LegacyNonce | `Block | `Seed => `(List Verif.U8)
    | `usize => `(Verif.Rust.Usize $tgtId)
    | `Self => match (← get).self with
      | some t => return t
      | none => err stx "Self"
    | _ => return mkIdent n
  | ``tyPath3 => return mkIdent (stx[2].getId ++ stx[4].getId)
  | ``tyApp =>
    let n := stx[0].getId
    let args ← stx[2].getSepArgs.mapM trTy
    match n with
    | `Option => `(Option $(args[0]!))
    | `Result => `(Except $(args[1]!) $(args[0]!))
    | `Array => `(List $(args[0]!))
    | `InOutBuf => `(List (Verif.Rust.InOut $(args[0]!)))
    | `Key | `Iv | `Block => `(List Verif.U8)
    | `ParBlocks => `(List (List Verif.U8))
    | _ => return Syntax.mkApp (mkIdent n) args
  | ``tyRef => trTy stx[1]
  | ``tyMut => trTy stx[2]
  | ``tyArr => `(List $(← trTy stx[1]))
  | ``tySlice => `(List $(← trTy stx[1]))
  | ``tyTuple =>
    let args ← stx[1].getSepArgs.mapM trTy
    match args.toList with
    | [] => `(Unit)
    | [a, b] => `($a × $b)
    | _ => err stx "tuple type"
  | ``tyQApp =>
    match stx[2].getId with
    | `ParBlocks => `(List (List Verif.U8))
    | `Block => `(List Verif.U8)
    | k => err stx s!"type {k}"
  | ``tyQual =>
    let f := mkIdent (`Variant ++ stx[4].getId)
    `($f $(← trTy stx[1]))
  | ``tyAny => `(_)
  | k => err stx s!"type {k}"

/-- The number of bytes of a type. -/
partial def sizeTerm (stx : Syntax) : M Term := do
  match stx.getKind with
  | ``tyArr => do
    let a ← sizeTerm stx[1]
    let n ← trE stx[3]
    step (← `(Verif.Rust.mul $tgtId $a $n))
  | ``tyPath => match stx[0].getId, stx[1].isNone with
    | `__m128i, true => `((16 : Verif.Rust.Usize $tgtId))
    | `__m256i, true => `((32 : Verif.Rust.Usize $tgtId))
    | `__m512i, true => `((64 : Verif.Rust.Usize $tgtId))
    | `Block, true => `((64 : Verif.Rust.Usize $tgtId))
    | _, _ => `(Verif.Rust.sizeOfTy $tgtId $(← trTy stx))
  | _ => `(Verif.Rust.sizeOfTy $tgtId $(← trTy stx))

/-- A generic argument: a type, with its instance, or a number. -/
partial def genArg (stx : Syntax) : M (Array Term) := do
  match stx.getKind with
  | ``tyNum => return #[⟨stx[0]⟩]
  | ``tyPath =>
    let x := stx[0].getId
    if (← get).consts.contains x then return #[mkIdent x]
    if stx[1].isNone && isConstName x.getString! && x.getString!.length > 1 && x.getString!.any (· == '_') then
      let v ← step (← `($(mkIdent x) $tgtId))
      return #[← `(($v).val)]
    return #[← trTy stx, ← `(_)]
  | _ => return #[← trTy stx, ← `(_)]

/-- A pointer: the place it points into, the size of what it points at after a `cast`, and the offset in bytes. -/
partial def ptrOf (stx : Syntax) : M (Place × Option Term × Term) := do
  match stx.getKind with
  | ``ePath => match (← get).ptrs.lookup stx[0].getId with
    | some (p, u) => return (p, u, mkIdent stx[0].getId)
    | none => err stx "pointer"
  | ``eParen => ptrOf stx[1]
  | ``eRawMut => return (← placeOf stx[3], none, ← `((0 : Nat)))
  | ``eCall => match methodOf stx with
    | some (r, `as_ptr, _, _) => return (← placeOf r, none, ← `((0 : Nat)))
    | some (r, `as_mut_ptr, _, _) => return (← placeOf r, none, ← `((0 : Nat)))
    | some (r, `cast, tys, _) =>
      let (p, _, o) ← ptrOf r
      let n ← if h : tys.size = 1 then
          match tys[0][0].getId with
          | `__m128i => pure (some (← `(16)))
          | `u64 => pure (some (← `(8)))
          | `i32 => pure (some (← `(4)))
          | `u8 => pure (some (← `(1)))
          | _ => err stx "cast"
        else pure none
      return (p, n, o)
    | some (r, m, _, args) =>
      if m != `add && m != `offset then err stx "pointer"
      let (p, u, o) ← ptrOf r
      let i ← trE args[0]!
      let v ← readPlace p
      let u ← match u with
        | some u => pure u
        | none => `(Verif.Rust.Mem.unit $v)
      return (p, some u, ← step (← `(Verif.Rust.ptrAdd (tgt := $tgtId) (Verif.Rust.Mem.size $v) $u $o $i)))
    | none => err stx "pointer"
  | _ => err stx "pointer"

/-- The length of the array type. -/
partial def tyLen (stx : Syntax) : M (Option Term) := do
  match stx.getKind with
  | ``tyArr => return some (← trE stx[3])
  | ``tyApp =>
    if stx[0].getId == `Array then
      let s := (stx[2].getSepArgs[1]!)[0].getId.getString!
      return some (Syntax.mkNumLit (s.drop 1).toString)
    else return none
  | _ => return none

/-- Rejoin `x` if it has been split. -/
partial def rejoin (x : Name) : M Unit := do
  if let some parts := (← get).split.lookup x then
    modify fun s => { s with split := s.split.filter (·.1 != x) }
    let ps : List Term := parts.map fun p => mkIdent p
    match ps with
    | [] => pure ()
    | p :: ps =>
      let t ← ps.foldlM (fun acc q => `($acc ++ $q)) p
      emit (← `(doElem| $(mkIdent x):ident := $t))

/-- The place denoted by an expression. -/
partial def placeOf (stx : Syntax) : M Place := do
  match stx.getKind with
  | ``ePath =>
    if stx[1].getNumArgs != 0 then return .temp (← trE stx)
    match stx[0].getId.components with
    | [] => err stx "name"
    | x :: fs =>
      if fs.isEmpty && isConstName x.getString! then return .temp (← trE stx)
      rejoin x
      let st ← get
      let base : Place := match st.places.lookup x with
        | some p => p
        | none => .var (mkIdent ((st.ren.lookup x).getD x))
      return fs.foldl (fun p f => .field p (mkIdent f)) base
  | ``eParen => placeOf stx[1]
  | ``eDeref => placeOf stx[1]
  | ``eRef => placeOf stx[1]
  | ``eRefMut => placeOf stx[2]
  | ``eField => return stx[2].getId.components.foldl (fun p f => .field p (mkIdent f)) (← placeOf stx[0])
  | ``eProj =>
    let i := stx[2].isNatLit?.getD 0
    return .field (← placeOf stx[0]) (mkIdent (Name.mkSimple s!"f{i}"))
  | ``eIdx =>
    let p ← placeOf stx[0]
    match stx[2].getKind with
    | ``eRange => return .slice p (← trE stx[2][0]) (← trE stx[2][2])
    | ``eRangeTo => return .slice p (← `(0)) (← trE stx[2][1])
    | ``eRangeFrom =>
      let r ← readPlace p
      return .slice p (← trE stx[2][0]) (← `(Verif.Rust.len $tgtId $r))
    | _ => return .index p (← trE stx[2])
  | ``eCall =>
    if let some (c, []) := (if stx[0].getKind == ``ePath then backendPath stx[0][0].getId (stx[0][1].getArgs.map (·[1])).toList else none) then
      return .wrap (mkIdent c) (← placeOf stx[2].getSepArgs[0]!)
    let cs := if stx[0].getKind == ``ePath then stx[0][0].getId.components else []
    match cs with
    | [x] =>
      if startsUpper x && stx[2].getSepArgs.size == 1 && ![`Ok, `Err, `Some, `Self].contains x then return .wrap (mkIdent x) (← placeOf stx[2].getSepArgs[0]!)
      return .temp (← trE stx)
    | [x, f] =>
      if f == `get_in || f == `get_out then return .field (.var (mkIdent x)) (mkIdent f)
      return .temp (← trE stx)
    | _ => return .temp (← trE stx)
  | _ => return .temp (← trE stx)

partial def readPlace : Place → M Term
  | .var x => return x
  | .field p f => do
    let r ← readPlace p
    match r with
    | `($x:ident) => return mkIdent (x.getId ++ f.getId)
    | _ => `(($r).$f:ident)
  | .index p i => do step (← `(Verif.Rust.idx (tgt := $tgtId) $(← readPlace p) $i))
  | .slice p a b => do step (← `(Verif.Rust.slice (tgt := $tgtId) $(← readPlace p) $a $b))
  | .wrap c p => do `($(mkIdent (c.getId ++ `mk)) $(← readPlace p))
  | .temp t => return t

partial def writePlace (v : Term) : Place → M Unit
  | .var x => do emit (← `(doElem| $x:ident := $v))
  | .field p f => do
    let r ← readPlace p
    writePlace (← `({ $r with $f:ident := $v })) p
  | .index p i => do
    let r ← readPlace p
    writePlace (← step (← `(Verif.Rust.upd (tgt := $tgtId) $r $i $v))) p
  | .slice p a b => do
    let r ← readPlace p
    writePlace (← `(Verif.Rust.putSlice (tgt := $tgtId) $r $a $b $v)) p
  | .wrap _ p => do writePlace (← `(($v).f0)) p
  | .temp t => err t "assignment to a temporary"

/-- Translate an expression: emit its steps, return its value. -/
partial def trE (stx : Syntax) : M Term := do
  match stx.getKind with
  | ``eNum => return ⟨stx[0]⟩
  | ``eSuf =>
    let ty ← match stx[1].getId with
      | `u8 => `(Verif.U8)
      | `u16 => `(Verif.U16)
      | `u32 => `(Verif.U32)
      | `u64 => `(Verif.U64)
      | `usize => `(Verif.Rust.Usize $tgtId)
      | _ => err stx "suffix"
    let n : Term := ⟨stx[0]⟩
    `(($n : $ty))
  | ``ePath =>
    let segs := stx[1].getArgs.map (·[1])
    if segs.isEmpty then
      match stx[0].getId.components with
      | [x] =>
        if x == `PhantomData then `(()) else
        if x == `None then `(none) else
        if (← get).consts.contains x then `((⟨$(mkIdent x)⟩ : Verif.Rust.Usize $tgtId)) else
        if isConstName x.getString! then step (← `($(mkIdent x) $tgtId)) else
        if startsUpper x then return mkIdent (x ++ `mk) else
        readPlace (← placeOf stx)
      | _ => readPlace (← placeOf stx)
    else
      let x := stx[0].getId
      match segs.toList with
      | [s] =>
        let c := segName s
        match x, c with
        | _, `MAX => `(Verif.Rust.maxValue $(← trTy (mkNode ``tyPath #[stx[0], mkNullNode])))
        | _, `COUNT => `($(mkIdent `Rounds.COUNT) $(mkIdent x) $tgtId)
        | _, `USIZE => `(Unsigned.USIZE $(mkIdent x) $tgtId)
        | _, _ => err stx s!"path {x}::{c}"
      | _ => err stx "path"
  | ``eParen => trE stx[1]
  | ``eUnit => `(())
  | ``eTuple =>
    let a ← trE stx[1]
    let bs ← stx[3].getSepArgs.mapM trE
    match bs.toList with
    | [b] => `(($a, $b))
    | _ => err stx "tuple"
  | ``eArr =>
    let args ← stx[1].getSepArgs.mapM trE
    `([$args,*])
  | ``eRep =>
    let a ← trE stx[1]
    let n ← trE stx[3]
    `(List.replicate ($n : Verif.Rust.Usize $tgtId).val $a)
  | ``eStruct =>
    let fs ← stx[3].getSepArgs.filterMapM fun f => do
      let x : Ident := ⟨f[0]⟩
      if f.getKind == ``fieldVal then
        if f[2].getKind == ``ePath && f[2][0].getId == `PhantomData then return none
        return some (x, ← trE f[2])
      else
        rejoin x.getId
        return some (x, (mkIdent (((← get).ren.lookup x.getId).getD x.getId) : Term))
    let fx := fs.map (·.1)
    let fv := fs.map (·.2)
    let ty ← match stx[0].getId, (← get).self with
      | `Self, some t => pure t
      | n, _ => pure (Syntax.mkApp (mkIdent n) (← (if stx[1].isNone then pure #[] else stx[1][2].getSepArgs.mapM trTy)))
    `(({ $[$fx:ident := $fv:term],* } : $ty))
  | ``eBlock | ``eUnsafe | ``eIf | ``eMatch =>
    let (es, _) ← collect (valueStep stx)
    step (← doTermIn es)
  | ``eAssert =>
    let b ← trE stx[1 + 1].getSepArgs[0]!
    emit (← `(doElem| Verif.Rust.assert $b))
    `(())
  | ``eAssertEq =>
    let a ← trE stx[2]
    let b ← trE stx[4]
    emit (← `(doElem| Verif.Rust.assert ($a == $b)))
    `(())
  | ``eDebugAssertEq =>
    let a ← trE stx[2]
    let b ← trE stx[4]
    emit (← `(doElem| Verif.Rust.debugAssert $tgtId ($a == $b)))
    `(())
  | ``eMatches =>
    let a ← trE stx[2]
    let x : Term := ⟨stx[4]⟩
    let y : Term := ⟨stx[6]⟩
    let z : Term := ⟨stx[8]⟩
    `(($a == $x || $a == $y || $a == $z))
  | ``eStr => return ⟨stx[0]⟩
  | ``eStringify =>
    let t ← trTy stx[2]
    `($(mkIdent (headName t ++ `stringify)) $t)
  | ``eConcat =>
    let args ← stx[2].getSepArgs.mapM trE
    `(String.join [$args,*])
  | ``eWrite =>
    let p ← placeOf stx[2]
    let args ← stx[4].getSepArgs.mapM trE
    let shown ← args.toSubarray.drop 1 |>.toArray.mapM fun a => `(Verif.Rust.Display.text $a)
    finish (← `(Verif.Rust.writeFmt $tgtId $(← readPlace p) $(args[0]!) [$shown,*])) [p]
  | ``eUnreachable => step (← `(Except.error Verif.Panic.assertion))
  | ``eCall => trCall stx
  | ``eIdx | ``eField | ``eProj => readPlace (← placeOf stx)
  | ``eRef => trE stx[1]
  | ``eRefMut => trE stx[2]
  | ``eDeref => trE stx[1]
  | ``eAs => `(Verif.Rust.cast $(← trTy stx[2]) $(← trE stx[0]))
  | ``eMul => do let a ← trE stx[0]; let b ← trE stx[2]; step (← `(Verif.Rust.mul $tgtId $a $b))
  | ``eDiv => do let a ← trE stx[0]; let b ← trE stx[2]; step (← `(Verif.Rust.div $tgtId $a $b))
  | ``eRem => do let a ← trE stx[0]; let b ← trE stx[2]; step (← `(Verif.Rust.rem $tgtId $a $b))
  | ``eAdd => do let a ← trE stx[0]; let b ← trE stx[2]; step (← `(Verif.Rust.add $tgtId $a $b))
  | ``eSub => do let a ← trE stx[0]; let b ← trE stx[2]; step (← `(Verif.Rust.sub $tgtId $a $b))
  | ``eShl => do let a ← trE stx[0]; let b ← trE stx[2]; step (← `(Verif.Rust.shl $tgtId $a $b))
  | ``eShr => do let a ← trE stx[0]; let b ← trE stx[2]; step (← `(Verif.Rust.shr $tgtId $a $b))
  | ``eAnd => do let a ← trE stx[0]; let b ← trE stx[2]; `(Verif.Rust.RInt.band $a $b)
  | ``eXor => do let a ← trE stx[0]; let b ← trE stx[2]; `(Verif.Rust.RInt.bxor $a $b)
  | ``eOr => do let a ← trE stx[0]; let b ← trE stx[2]; `(Verif.Rust.RInt.bor $a $b)
  | ``eEq => do let a ← trE stx[0]; let b ← trE stx[2]; `($a == $b)
  | ``eNe => do let a ← trE stx[0]; let b ← trE stx[2]; `($a != $b)
  | ``eLt => do let a ← trE stx[0]; let b ← trE stx[2]; `(Verif.Rust.lt $a $b)
  | ``eLe => do let a ← trE stx[0]; let b ← trE stx[2]; `(Verif.Rust.le $a $b)
  | ``eGt => do let a ← trE stx[0]; let b ← trE stx[2]; `(Verif.Rust.lt $b $a)
  | ``eLAnd =>
    let a ← condition (← trE stx[0])
    let (es, b) ← collect (trE stx[2])
    if es.isEmpty then `($a && $b) else
      let t ← doTermIn (es.push (← `(doElem| pure $b)))
      step (← `(if $a then $t else pure false))
  | ``eLOr =>
    let a ← condition (← trE stx[0])
    let (es, b) ← collect (trE stx[2])
    if es.isEmpty then `($a || $b) else
      let t ← doTermIn (es.push (← `(doElem| pure $b)))
      step (← `(if $a then pure true else $t))
  | ``eAssign =>
    if ← isPtr stx[0] then
      let (_, _, o) ← ptrOf stx[2]
      let x : Ident := mkIdent stx[0][0].getId
      emit (← `(doElem| $x:ident := $o))
      return ← `(())
    let v ← trE stx[2]
    let p ← placeOf stx[0]
    writePlace v p
    `(())
  | ``eAssignXor =>
    let v ← trE stx[2]
    let p ← placeOf stx[0]
    let r ← readPlace p
    writePlace (← `(Verif.Rust.RInt.bxor $r $v)) p
    `(())
  | ``eAssignAdd =>
    let v ← trE stx[2]
    let p ← placeOf stx[0]
    let r ← readPlace p
    writePlace (← step (← `(Verif.Rust.add $tgtId $r $v))) p
    `(())
  | k => match ← liftM (m := MacroM) (Macro.expandMacro? stx) with
    | some stx => trE stx
    | none => err stx s!"expression {k}"

/-- Emit steps ending in `pure v`, where `v` is the value of the expression. -/
partial def valueStep (stx : Syntax) : M Unit := do
  match stx.getKind with
  | ``eBlock => trBlock stx[0] (some fun v => do emit (← `(doElem| pure $v)))
  | ``eUnsafe => trBlock stx[1] (some fun v => do emit (← `(doElem| pure $v)))
  | ``eIf => branch stx valueStep
  | ``eMatch => branch stx valueStep
  | _ =>
    let v ← trE stx
    emit (← `(doElem| pure $v))

/-- Emit an `if` or `match`, each branch being translated by `k`. -/
partial def branch (stx : Syntax) (k : Syntax → M Unit) : M Unit := do
  match stx.getKind with
  | ``eIf =>
    let c ← condition (← trE stx[1])
    let (a, _) ← collect (inScope (k (mkNode ``eBlock #[stx[2]])))
    let a ← nonEmpty a
    if stx[3].isNone then
      emit (← `(doElem| if $c then $[$a:doElem]*))
    else
      let (b, _) ← collect (inScope (k stx[3][1]))
      let b ← nonEmpty b
      emit (← `(doElem| if $c then $[$a:doElem]* else $[$b:doElem]*))
  | ``eMatch =>
    let s ← trE stx[1]
    arms s stx[3].getArgs.toList k
  | _ => k stx

partial def arms (s : Term) (rest : List Syntax) (k : Syntax → M Unit) : M Unit := do
  match rest with
  | [] => emit (← `(doElem| Except.error Verif.Panic.assertion))
  | a :: rest =>
    if a.getKind == ``armAny then inScope (k a[2]) else
    let n : Term := ⟨a[0]⟩
    let (x, _) ← collect (inScope (k a[2]))
    let x ← nonEmpty x
    let (y, _) ← collect (arms s rest k)
    let y ← nonEmpty y
    let c ← condition (← `($s == $n))
    emit (← `(doElem| if $c then $[$x:doElem]* else $[$y:doElem]*))

partial def nonEmpty (es : Array (TSyntax `doElem)) : M (Array (TSyntax `doElem)) := do
  if es.isEmpty then return #[← `(doElem| pure ())] else return es

/-- Arguments of a call: values, and the places to be written back. -/
partial def trArgs (args : Array Syntax) : M (Array Term × Array Place) := do
  let mut vs := #[]
  let mut ps := #[]
  for a in args do
    let isRef := a.getKind == ``ePath && a[1].getNumArgs == 0 && (← get).refs.contains a[0].getId
    if a.getKind == ``eRefMut || isRef then
      let p ← placeOf a
      vs := vs.push (← readPlace p)
      ps := ps.push p
    else
      vs := vs.push (← trE a)
  return (vs, ps)

/-- Make the call `t`, write back the changed places, return the result. -/
partial def finish (t : Term) (ps : List Place) : M Term := do
  let r ← step t
  if ps.isEmpty then return r
  let rec go (cur : Term) : List Place → M Unit
    | [] => pure ()
    | [p] => writePlace cur p
    | p :: ps => do
      writePlace (← `(($cur).1)) p
      go (← `(($cur).2)) ps
  go (← `(($r).2)) ps
  `(($r).1)

/-- Record that an instruction is executed. -/
partial def instruction (x : Name) (t : Term) : M Term := do
  if (← get).traced then step (← `(Verif.Rust.Tr.instr $(quote x.getString!) $t)) else return t

/-- An argument of an intrinsic; `m - n` is an immediate operand. -/
partial def imm (stx : Syntax) : M Term := do
  if stx.getKind == ``eSub && stx[0].getKind == ``eNum && stx[2].getKind == ``eNum then
    let a : Term := ⟨stx[0][0]⟩
    let b : Term := ⟨stx[2][0]⟩
    `($a - $b)
  else trE stx

partial def trCall (stx : Syntax) : M Term := do
  let f := stx[0]
  let args := stx[2].getSepArgs
  match f.getKind with
  | ``ePath =>
    let segs := f[1].getArgs.map (·[1])
    let comps := f[0].getId.components
    if segs.isEmpty then
      match comps with
      | [x] =>
        match x with
        | `Ok => `(Except.ok $(← trE args[0]!))
        | `Err => `(Except.error $(← trE args[0]!))
        | `Some => `(some $(← trE args[0]!))
        | `unreachable => err stx "call"
        | `size_of_val => `(Verif.Rust.sizeOfVal $tgtId $(← trE args[0]!))
        | `Self => match (← get).self with
          | some t => return Syntax.mkApp (mkIdent (headName t ++ `mk)) (← args.mapM trE)
          | none => err stx "Self"
        | _ =>
          if startsUpper x then
            return Syntax.mkApp (mkIdent (x ++ `mk)) (← args.mapM trE)
          if let some ty := loads.lookup x then
            let (p, _, o) ← ptrOf args[0]!
            let r ← readPlace p
            let r ← match ty with
              | some t => `(($r : List $(mkIdent t)))
              | none => pure r
            if (← get).traced then return ← step (← `((Verif.Rust.Tr.load $(quote x.getString!) $r $o : Verif.Rust.Tr Verif.M128)))
            return ← step (← `((Verif.Rust.load $r $o : Except Verif.Panic Verif.M128)))
          if stores.contains x then
            let (p, _, o) ← ptrOf args[0]!
            let v ← trE args[1]!
            let r ← readPlace p
            writePlace (← step (← if (← get).traced then `(Verif.Rust.Tr.store $(quote x.getString!) $r $o $v) else `(Verif.Rust.store $r $o $v))) p
            return ← `(())
          if isIntrinsic x then
            return ← instruction x (Syntax.mkApp (mkIdent x) (← args.mapM imm))
          let (vs, ps) ← trArgs args
          finish (Syntax.mkApp (mkIdent (← fnName x)) (#[(tgtId : Term)] ++ vs)) ps.toList
      | _ =>
        let recv := pathStx comps.dropLast
        method recv comps.getLast! args
    else
      let (x, segs) := (backendPath f[0].getId segs.toList).getD (f[0].getId, segs.toList)
      match segs with
      | [s] =>
        if s.getKind == ``segTy then
          if x == `size_of then return ← sizeTerm s[1].getSepArgs[0]!
          let comps := x.components
          if comps.length ≥ 2 && f[0].getId == x then
            return ← method (pathStx comps.dropLast) comps.getLast! args s[1].getSepArgs
          if isIntrinsic x then
            let vs ← args.mapM trE
            let cs ← s[1].getSepArgs.mapM genArg
            return ← instruction x (Syntax.mkApp (mkIdent x) (vs ++ cs.flatten))
          let tys ← s[1].getSepArgs.mapM genArg
          let (vs, ps) ← trArgs args
          finish (Syntax.mkApp (← `(@$(mkIdent (← fnName x)))) (tys.flatten ++ #[(tgtId : Term)] ++ vs)) ps.toList
        else
          let g := segName s
          let ty : Syntax := mkNode ``tyPath #[f[0], mkNullNode]
          match x, g with
          | `array, `from_fn => err stx "array::from_fn needs the length"
          | `Nonce, `default => `(List.replicate 8 0)
          | _, `from_le_bytes => step (← `((Verif.Rust.fromLeBytes $(← trE args[0]!) : Except Verif.Panic $(← trTy ty))))
          | _, `try_from => `((Verif.Rust.TryInto.tryInto $(← trE args[0]!) : Option $(← trTy ty)))
          | `usize, `from | `u32, `from | `u64, `from | `u128, `from | `i64, `from => `(Verif.Rust.cast $(← trTy ty) $(← trE args[0]!))
          | `V, _ =>
            let (vs, ps) ← trArgs args
            finish (Syntax.mkApp (mkIdent (← fnName (`Variant ++ g))) (#[(mkIdent x : Term), tgtId] ++ vs)) ps.toList
          | _, _ =>
            let h : Name ← if x == `Self then
                match (← get).self with
                | some t => pure (headName t)
                | none => err stx "Self"
              else pure x
            let (vs, ps) ← trArgs args
            finish (Syntax.mkApp (mkIdent (← fnName (h ++ g))) (#[(tgtId : Term)] ++ vs)) ps.toList
      | [t, g] =>
        if x == `ParBlocks && segName g == `default then
          return Syntax.mkApp (mkIdent `ParBlocks.default) #[← trTy t[1].getSepArgs[0]!]
        if t.getKind == ``segTy then
          let tys ← t[1].getSepArgs.mapM genArg
          let (vs, ps) ← trArgs args
          finish (Syntax.mkApp (← `(@$(mkIdent (← fnName (x ++ segName g))))) (tys.flatten ++ #[(tgtId : Term)] ++ vs)) ps.toList
        else err stx "path call"
      | _ => err stx "path call"
  | ``eField =>
    let cs := f[2].getId.components
    let recv := if cs.length == 1 then f[0] else fieldStx f cs.dropLast
    method recv cs.getLast! args
  | _ => err stx "call"

partial def method (recv : Syntax) (m : Name) (args : Array Syntax) (tys : Array Syntax := #[]) : M Term := do
  let gs := (← tys.mapM genArg).flatten
  match m with
  | `is_empty => do `(List.isEmpty $(← trE recv))
  | `map =>
    let r ← trE recv
    let c := args[0]!
    let x : Ident := ⟨c[1].getSepArgs[0]![0]⟩
    let (es, b) ← collect (trE c[3])
    step (← `(List.mapM (fun $x => $(← doTermIn (es.push (← `(doElem| pure $b))))) $r))
  | `call =>
    let p ← placeOf recv
    let r ← readPlace p
    let (vs, ps) ← trArgs args
    finish (Syntax.mkApp (mkIdent (← fnName `StreamCipherClosure.call)) (#[(tgtId : Term), r] ++ vs)) (p :: ps.toList)
  | `wrapping_add => do let a ← trE recv; let b ← trE args[0]!; `(Verif.Rust.RInt.wadd $a $b)
  | `wrapping_sub => do let a ← trE recv; let b ← trE args[0]!; `(Verif.Rust.RInt.wsub $a $b)
  | `rotate_left => do let a ← trE recv; let b ← trE args[0]!; `(Verif.Rust.RInt.rotl $a $b)
  | `rotate_right => do let a ← trE recv; let b ← trE args[0]!; `(Verif.Rust.RInt.rotr $a $b)
  | `len => do `(Verif.Rust.len $tgtId $(← trE recv))
  | `to_le_bytes => do `(Verif.Rust.toLeBytes $(← trE recv))
  | `try_into => do `(Verif.Rust.TryInto.tryInto $(← trE recv))
  | `get_in | `get_out => readPlace (← placeOf (pathStx [recv[0].getId, m]))
  | `ok | `into | `as_ref => trE recv
  | `unwrap | `expect => do step (← `(Verif.Rust.Unwrap.unwrap $(← trE recv)))
  | `swap =>
    let p ← placeOf recv
    let i ← trE args[0]!
    let j ← trE args[1]!
    let r ← readPlace p
    writePlace (← step (← `(Verif.Rust.swap (tgt := $tgtId) $r $i $j))) p
    `(())
  | `copy_from_slice | `clone_from_slice =>
    let p ← placeOf recv
    let src ← trE args[0]!
    let r ← readPlace p
    writePlace (← step (← `(Verif.Rust.copyFromSlice $r $src))) p
    `(())
  | `zeroize =>
    let p ← placeOf recv
    let r ← readPlace p
    writePlace (← `(Verif.Rust.Zeroize.zeroize $r)) p
    `(())
  | `for_each =>
    let c := args[0]!
    loop (← iterOf recv) c[1].getSepArgs[0]! (do let _ ← trStmtE c[3])
    `(())
  | _ =>
    if mutMethods.contains m then
      let p ← placeOf recv
      let r ← readPlace p
      let (vs, ps) ← trArgs args
      let fun_ ← match r with
        | `($x:ident) => pure (mkIdent (x.getId ++ (← fnName m)) : Term)
        | _ => `(($r).$(mkIdent (← fnName m)):ident)
      finish (Syntax.mkApp fun_ (gs ++ #[(tgtId : Term)] ++ vs)) (p :: ps.toList)
    else
      let r ← trE recv
      let (vs, ps) ← trArgs args
      let fun_ ← match r with
        | `($x:ident) => pure (mkIdent (x.getId ++ (← fnName m)) : Term)
        | _ => `(($r).$(mkIdent (← fnName m)):ident)
      finish (Syntax.mkApp fun_ (gs ++ #[(tgtId : Term)] ++ vs)) ps.toList

/-- Is this the text of an iterator? -/
partial def isIter (stx : Syntax) : M Bool := do
  match stx.getKind with
  | ``eRange => return true
  | ``eProj => return (sliceAsChunks stx).isSome
  | ``eCall => match stx[0].getKind with
    | ``ePath => return [`iter, `iter_mut, `cycle, `chunks, `chunks_exact, `chunks_exact_mut, `enumerate, `zip].contains stx[0][0].getId.components.getLast!
    | ``eField => return [`iter, `iter_mut, `cycle, `chunks, `chunks_exact, `chunks_exact_mut, `enumerate, `zip].contains stx[0][2].getId.components.getLast!
    | _ => return false
  | _ => return false

partial def iterOf (stx : Syntax) : M It := do
  let call (recv : Syntax) (m : Name) (args : Array Syntax) : M It := do
    match m with
    | `iter => return .elems (← trE recv)
    | `iter_mut => return .elemsMut (← placeOf recv)
    | `chunks => return .chunks (← trE recv) (← trE args[0]!) false
    | `chunks_exact => return .chunks (← trE recv) (← trE args[0]!) true
    | `chunks_exact_mut => return .chunksMut (← placeOf recv) (← trE args[0]!)
    | `cycle => match ← iterOf recv with
      | .elems l => return .cycle l
      | _ => err stx "cycle"
    | `zip => do let a ← iterOf recv; return .zip a (← iterOf args[0]!)
    | `enumerate => return .enumerate (← iterOf recv)
    | `into_iter => iterOf recv
    | _ => return .elems (← trE stx)
  match stx.getKind with
  | ``eParen => iterOf stx[1]
  | ``eRange => do let a ← trE stx[0]; return .range a (← trE stx[2])
  | ``eProj => match sliceAsChunks stx with
    | some (n, l) => return .chunks (← trE l) n true
    | none => return .elems (← trE stx)
  | ``ePath =>
    match (← get).alias.lookup stx[0].getId with
    | some s => iterOf s
    | none =>
      if (← get).refs.contains stx[0].getId then return .elemsMut (← placeOf stx)
      return .elems (← trE stx)
  | ``eCall => match stx[0].getKind with
    | ``ePath =>
      let comps := stx[0][0].getId.components
      if comps.length ≥ 2 && stx[0][1].getNumArgs == 0 then
        call (pathStx comps.dropLast) comps.getLast! stx[2].getSepArgs
      else return .elems (← trE stx)
    | ``eField =>
      let f := stx[0]
      let cs := f[2].getId.components
      let recv := if cs.length == 1 then f[0] else fieldStx f cs.dropLast
      call recv cs.getLast! stx[2].getSepArgs
    | _ => return .elems (← trE stx)
  | _ => return .elems (← trE stx)

/-- The number of items; `none` for an iterator without end. -/
partial def itLen : It → M (Option Term)
  | .elems l => do `(List.length $l)
  | .elemsMut p => do `(List.length $(← readPlace p))
  | .chunks l n true => do `(List.length $l / $n)
  | .chunks l n false => do `((List.length $l + $n - 1) / $n)
  | .chunksMut p n => do `(List.length $(← readPlace p) / $n)
  | .range a b => do `((($b : Verif.Rust.Usize $tgtId).val - ($a : Verif.Rust.Usize $tgtId).val))
  | .cycle _ => return none
  | .enumerate a => itLen a
  | .zip a b => do
    match ← itLen a, ← itLen b with
    | some x, some y => `(min $x $y)
    | some x, none => endless x b
    | none, some y => endless y a
    | none, none => return none

/-- The number of items when an iterator with `n` items is zipped with one that has no end or no items. -/
partial def endless (n : Term) : It → M (Option Term)
  | .cycle l => do `(Verif.Rust.cycleLen $l $n)
  | _ => return some n

/-- Bind the item at position `k` to the pattern. -/
partial def bindItem (k : Ident) (pat : Syntax) : It → M Unit
  | .elems l => do bindPat pat (← step (← `(Verif.Rust.nth $l $k)))
  | .elemsMut p => do bindPat pat (← step (← `(Verif.Rust.nth $(← readPlace p) $k))) true
  | .chunks l n _ => do bindPat pat (← `(Verif.Rust.chunk $l $n $k))
  | .chunksMut p n => do bindPat pat (← `(Verif.Rust.chunk $(← readPlace p) $n $k)) true
  | .range a _ => do bindPat pat (← `((⟨($a : Verif.Rust.Usize $tgtId).val + $k⟩ : Verif.Rust.Usize $tgtId)))
  | .cycle l => do bindPat pat (← step (← `(Verif.Rust.nth $l ($k % List.length $l))))
  | .enumerate a => do
    bindPat pat[1].getSepArgs[0]! (← `((⟨$k⟩ : Verif.Rust.Usize $tgtId)))
    bindItem k pat[1].getSepArgs[1]! a
  | .zip a b => do
    bindItem k pat[1].getSepArgs[0]! a
    bindItem k pat[1].getSepArgs[1]! b

partial def bindPat (pat : Syntax) (v : Term) (isMut : Bool := false) : M Unit := do
  match pat.getKind with
  | ``patAny => pure ()
  | ``patId | ``patMut =>
    let x : Ident := if pat.getKind == ``patId then ⟨pat[0]⟩ else ⟨pat[1]⟩
    let y ← bindName x.getId
    let isMut := isMut || pat.getKind == ``patMut
    modify fun s => { s with refs := if isMut then x.getId :: s.refs else s.refs.filter (· != x.getId), alias := s.alias.filter (·.1 != x.getId) }
    if isMut then emit (← `(doElem| let mut $y:ident := $v)) else emit (← `(doElem| let $y:ident := $v))
  | ``patTuple =>
    let xs := pat[1].getSepArgs
    bindPat xs[0]! (← `(($v).1))
    bindPat xs[1]! (← `(($v).2))
  | ``patArr =>
    let xs := pat[1].getSepArgs
    for h : i in [0:xs.size] do
      let e ← step (← `(Verif.Rust.nth $v $(quote i)))
      bindPat xs[i] e isMut
  | k => err pat s!"pattern {k}"

/-- Write the mutable items at position `k` back. -/
partial def writeBack (k : Ident) (pat : Syntax) : It → M Unit
  | .elemsMut p => do
    match ← patValue pat with
    | some v =>
      let r ← readPlace p
      writePlace (← `(List.set $r $k $v)) p
    | none => match pat.getKind with
      | ``patArr =>
        let r ← readPlace p
        let mut old : Term ← step (← `(Verif.Rust.nth $r $k))
        let xs := pat[1].getSepArgs
        for h : i in [0:xs.size] do
          if let some v ← patValue xs[i] then old ← `(List.set $old $(quote i) $v)
        writePlace (← `(List.set $r $k $old)) p
      | _ => pure ()
  | .chunksMut p n => do
    if let some v ← patValue pat then
      let r ← readPlace p
      writePlace (← `(Verif.Rust.putChunk $r $n $k $v)) p
  | .enumerate a => writeBack k pat[1].getSepArgs[1]! a
  | .zip a b => do
    writeBack k pat[1].getSepArgs[0]! a
    writeBack k pat[1].getSepArgs[1]! b
  | _ => pure ()

partial def patValue (pat : Syntax) : M (Option Term) := do
  match pat.getKind with
  | ``patId => return some (mkIdent (((← get).ren.lookup pat[0].getId).getD pat[0].getId))
  | ``patMut => return some (mkIdent (((← get).ren.lookup pat[1].getId).getD pat[1].getId))
  | _ => return none

partial def loop (it : It) (pat : Syntax) (body : M Unit) : M Unit := do
  let some n ← itLen it | err pat "endless loop"
  if (← get).traced then emit (← `(doElem| Verif.Rust.Tr.loop $n))
  let k ← fresh
  let (es, _) ← collect (inScope do
    bindItem k pat it
    body
    writeBack k pat it)
  let es ← nonEmpty es
  emit (← `(doElem| for $k:ident in List.range $n do $[$es:doElem]*))

/-- Translate an expression used as a statement. -/
partial def trStmtE (stx : Syntax) : M Unit := do
  match stx.getKind with
  | ``eBlock => inScope (trBlock stx[0] none)
  | ``eUnsafe => inScope (trBlock stx[1] none)
  | ``eIf | ``eMatch => branch stx trStmtE
  | ``eUnreachable => emit (← `(doElem| Except.error Verif.Panic.assertion))
  | _ => match ← liftM (m := MacroM) (Macro.expandMacro? stx) with
    | some stx => trStmtE stx
    | none => let _ ← trE stx

/-- Translate a block; `tail` says what to do with the value of its last expression. -/
partial def trBlock (stx : Syntax) (tail : Option (Term → M Unit)) : M Unit := do
  let ss := stx[1].getArgs
  for h : i in [0:ss.size] do
    let s := ss[i]
    let last := i + 1 == ss.size
    match s.getKind with
    | ``sLet => trLet s
    | ``sConst => trStmtE s[5]
    | ``sUse => pure ()
    | ``sFor => loop (← iterOf s[3]) s[1] (trBlock s[4] none)
    | ``sReturn => err s "return inside a block"
    | _ =>
      if last && s[1].isNone then
        match tail with
        | some k =>
          match s[0].getKind with
          | ``eIf | ``eMatch => branch s[0] (tailStmt k)
          | ``eBlock => inScope (trBlock s[0][0] tail)
          | ``eUnsafe => inScope (trBlock s[0][1] tail)
          | _ => k (← trE s[0])
        | none => trStmtE s[0]
      else trStmtE s[0]

partial def tailStmt (k : Term → M Unit) (stx : Syntax) : M Unit := do
  match stx.getKind with
  | ``eBlock => trBlock stx[0] (some k)
  | ``eUnsafe => trBlock stx[1] (some k)
  | ``eIf | ``eMatch => branch stx (tailStmt k)
  | _ => k (← trE stx)

partial def trLet (s : Syntax) : M Unit := do
  let isMut := !s[1].isNone
  let pat := s[2]
  let e := s[5]
  match pat.getKind with
  | ``patTuple =>
    let xs := pat[1].getSepArgs
    if e.getKind == ``ePath then
      -- let (a, b) = x, let (a, b, c) = x
      let v ← trE e
      match xs.toList with
      | [a, b] =>
        bindPat a (← `((Verif.Rust.Tuple2.get $v).1))
        bindPat b (← `((Verif.Rust.Tuple2.get $v).2))
      | [a, b, c] =>
        bindPat a (← `((Verif.Rust.Tuple3.get $v).1))
        bindPat b (← `((Verif.Rust.Tuple3.get $v).2.1))
        bindPat c (← `((Verif.Rust.Tuple3.get $v).2.2))
      | _ => err s "tuple"
      return
    -- let (a, b) = x.split_at(n)
    let some (recv, m) := (match e[0].getKind with
      | ``ePath => let cs := e[0][0].getId.components
        some (pathStx cs.dropLast, cs.getLast!)
      | ``eField => some (e[0][0], e[0][2].getId)
      | _ => none) | err s "let"
    let n ← trE e[2].getSepArgs[0]!
    let p ← placeOf recv
    let v ← step (← `(Verif.Rust.splitAt (tgt := $tgtId) $(← readPlace p) $n))
    let ids := xs.map fun x => (⟨x[0]⟩ : Ident)
    if m == `split_at_mut then
      let root := recv[0].getId
      let parts := ids.toList.map (·.getId)
      let sp := (← get).split
      if sp.any (·.2.contains root) then
        modify fun s => { s with split := s.split.map fun (r, ps) => (r, ps.flatMap fun q => if q == root then parts else [q]) }
      else
        modify fun s => { s with split := (root, parts) :: s.split }
      -- a part may take the name of the variable that is split, which is not used again
      for (x, t) in [(ids[0]!, ← `(($v).1)), (ids[1]!, ← `(($v).2))] do
        if x.getId == root then emit (← `(doElem| $x:ident := $t)) else emit (← `(doElem| let mut $x:ident := $t))
      modify fun s => { s with refs := parts ++ s.refs }
    else
      emit (← `(doElem| let $(ids[0]!):ident := ($v).1))
      emit (← `(doElem| let $(ids[1]!):ident := ($v).2))
  | ``patArr =>
    -- let [a, _, c, d] = v, where v is a mutable reference
    let p ← placeOf e
    let xs := pat[1].getSepArgs
    for h : i in [0:xs.size] do
      if xs[i].getKind == ``patId then
        modify fun st => { st with places := (xs[i][0].getId, .index p (Unhygienic.run `($(quote i)))) :: st.places }
  | ``patId =>
    let x : Ident := ⟨pat[0]⟩
    if ← isPtr e then
      let (p, u, o) ← ptrOf e
      let y ← bindName x.getId
      modify fun st => { st with ptrs := (x.getId, p, u) :: st.ptrs }
      if isMut then emit (← `(doElem| let mut $y:ident := $o)) else emit (← `(doElem| let $y:ident := $o))
      return
    if ← isIter e then
      modify fun st => { st with alias := (x.getId, e) :: st.alias }
      return
    modify fun st => { st with refs := st.refs.filter (· != x.getId), alias := st.alias.filter (·.1 != x.getId) }
    let ann := s[3]
    let v ← (do
      if !ann.isNone && e.getKind == ``eCall && e[0].getKind == ``ePath && e[0][1].getNumArgs == 1 then
        let c := segName (e[0][1][0])[1]
        if e[0][0].getId == `array && c == `from_fn then
          let some n ← tyLen ann[1] | err s "length"
          let cl := e[2].getSepArgs[0]!
          let ci : Ident := ⟨cl[1].getSepArgs[0]![0]⟩
          let (es, b) ← collect (trE cl[3])
          return ← step (← `(Verif.Rust.fromFn (tgt := $tgtId) $n fun $ci => $(← doTermIn (es.push (← `(doElem| pure $b))))))
        if e[0][0].getId == `Array && c == `default then
          let some n ← tyLen ann[1] | err s "length"
          return ← `(List.replicate $n 0)
      if !ann.isNone && ann[1].getKind == ``tyArr && e.getKind == ``eCall && e[0].getKind == ``ePath && e[0][0].getId == `core && e[0][1].getNumArgs == 2 then
        -- core::mem::transmute
        let ty ← trTy ann[1][1]
        let n ← trE ann[1][3]
        return ← step (← `(Verif.Rust.transmute (tgt := $tgtId) (β := $ty) $n $(← trE e[2].getSepArgs[0]!)))
      -- x.try_into().unwrap() at the type of an array
      if !ann.isNone && e.getKind == ``eCall && e[0].getKind == ``eField && [`unwrap, `expect].contains e[0][2].getId then
        if let some n ← tyLen (if ann[1].getKind == ``tyRef then ann[1][1] else ann[1]) then
          let c := e[0][0]
          if c.getKind == ``eCall && c[0].getKind == ``ePath && c[0][0].getId.components.getLast! == `try_into then
            return ← step (← `(Verif.Rust.arrayOf (tgt := $tgtId) $n $(← trE (pathStx c[0][0].getId.components.dropLast))))
      trE e)
    let x ← bindName x.getId
    if ann.isNone then
      if isMut then emit (← `(doElem| let mut $x:ident := $v)) else emit (← `(doElem| let $x:ident := $v))
    else
      let ty ← trTy ann[1]
      if isMut then emit (← `(doElem| let mut $x:ident : $ty := $v)) else emit (← `(doElem| let $x:ident : $ty := $v))
  | ``patMut =>
    trLet (((s.setArg 1 (mkNullNode #[mkAtom "mut"])).setArg 2 (mkNode ``patId #[pat[1]])))
  | k => err s s!"let {k}"

end

/-- Expressions without value: blocks that do not end in an expression, assignments, `if` without `else`, and `if` and `match` with such a branch. -/
partial def noValue (stx : Syntax) : Bool :=
  let block (b : Syntax) : Bool := match b[1].getArgs.back? with
    | none => true
    | some s => s.getKind != ``sExpr || !s[1].isNone || noValue s[0]
  match stx.getKind with
  | ``eBlock => block stx[0]
  | ``eUnsafe => block stx[1]
  | ``eIf => stx[3].isNone || block stx[2] || noValue stx[3][1]
  | ``eMatch => stx[3].getArgs.any fun a => noValue a[2]
  | ``eAssign => true
  | _ => false

/-- `return` statements occur only at the end of an `if` without `else`, at the top of a function. -/
partial def trBody (ss : List Syntax) (ret : Term → M Unit) (unit : M Unit) : M Unit := do
  match ss with
  | [] => unit
  | s :: rest =>
    match s.getKind with
    | ``sLet => trLet s; trBody rest ret unit
    | ``sConst => trStmtE s[5]; trBody rest ret unit
    | ``sUse => trBody rest ret unit
    | ``sFor => loop (← iterOf s[3]) s[1] (trBlock s[4] none); trBody rest ret unit
    | ``sReturn => if s[1].isNone then unit else ret (← trE s[1][0])
    | _ =>
      if rest.isEmpty && s[1].isNone then
        if (s[0].getKind == ``eIf || s[0].getKind == ``eMatch) && noValue s[0] then
          trStmtE s[0]
          unit
        else match s[0].getKind with
        | ``eIf | ``eMatch => branch s[0] (tailStmt ret)
        | ``eBlock => trBody s[0][0][1].getArgs.toList ret unit
        | ``eUnsafe => trBody s[0][1][1].getArgs.toList ret unit
        | _ => ret (← trE s[0])
      else if s[0].getKind == ``eIf && s[0][3].isNone && (s[0][2][1].getArgs.back?.any fun r => r.getKind == ``sReturn) then
        let c ← condition (← trE s[0][1])
        let (a, _) ← collect (inScope (trBody s[0][2][1].getArgs.toList ret unit))
        emit (← `(doElem| if $c then $[$a:doElem]*))
        trBody rest ret unit
      else
        trStmtE s[0]
        trBody rest ret unit

/-- The bound of a type parameter in a `where` clause. -/
def boundOf (wh : Syntax) (x : Name) : Option Ident :=
  if wh.isNone then none else
  (wh[1].getSepArgs.find? fun b => b[0].getId == x).map fun b =>
    mkIdent (if b[2].getKind == ``tyAssoc && !b[2][1].isNone then b[2][1][1].getId else b[2][0].getId)

/-- Type parameters with the class of their bound; const parameters that the body mentions. -/
def binders (gens wh body : Syntax) : M (Array (TSyntax ``Parser.Term.bracketedBinder)) := do
  if gens.isNone then return #[]
  let mut bs := #[]
  for g in gens[1].getSepArgs do
    if g.getKind == ``gConst then
      let x : Ident := ⟨g[1]⟩
      if (body.find? fun s => s.isIdent && s.getId == x.getId).isSome then
        bs := bs.push (← `(Parser.Term.bracketedBinderF| ($x : Nat)))
        modify fun s => { s with consts := x.getId :: s.consts }
    else
      let x : Ident := ⟨g[0]⟩
      let c : Ident ← if g.getKind == ``gTy then pure ⟨g[2]⟩ else
        match boundOf wh x.getId with
        | some c => pure c
        | none => err g "type parameter without bound"
      bs := bs.push (← `(Parser.Term.bracketedBinderF| {$x : Type}))
      bs := bs.push (← `(Parser.Term.bracketedBinderF| [$c $x]))
  return bs

/-- The same function with different texts, chosen by the values of some terms. -/
structure Alts where
  binder : TSyntax ``Parser.Term.bracketedBinder
  discs : Array Term
  arms : Array (Array Term × Syntax)

/-- Translate a function. -/
def trFn (f : Syntax) (implGens : Syntax) (self : Option Term) (trait : Name := .anonymous) (alts : Option Alts := none)
    (traced : Bool := false) : MacroM Command := do
  let doc := f[0]
  let name := f[4].getId
  let act : M Command := do
    let mut bs ← binders implGens mkNullNode f[11]
    if let some a := alts then bs := #[a.binder] ++ bs
    bs := bs ++ (← binders f[5] f[10] f[11])
    if f[7].getSepArgs.any fun p => p.getKind == ``pTyped && p[3].getKind == ``tyImpl then
      bs := bs.push (← `(Parser.Term.bracketedBinderF| {$(mkIdent `F) : Type}))
      bs := bs.push (← `(Parser.Term.bracketedBinderF| [$(mkIdent `StreamCipherClosure) $(mkIdent `F)]))
    bs := bs.push (← `(Parser.Term.bracketedBinderF| ($tgtId : Verif.Rust.Target)))
    let mut muts : Array Ident := #[]
    let mut mutTys : Array Term := #[]
    for p in f[7].getSepArgs do
      match p.getKind with
      | ``pSelfRef =>
        let some ty := self | err p "self"
        let x : Ident := ⟨p[1]⟩
        bs := bs.push (← `(Parser.Term.bracketedBinderF| ($x : $ty)))
      | ``pSelfMut =>
        let some ty := self | err p "self"
        let x : Ident := ⟨p[2]⟩
        bs := bs.push (← `(Parser.Term.bracketedBinderF| ($x : $ty)))
        muts := muts.push x
        mutTys := mutTys.push ty
      | _ =>
        let x : Ident := ⟨p[1]⟩
        let ty ← if p[3].getKind == ``tyImpl then pure (mkIdent `F : Term) else trTy p[3]
        let closure := p[3].getKind == ``tyImpl || (p[3].getKind == ``tyPath && (boundOf f[10] p[3][0].getId).any fun c => c.getId == `StreamCipherClosure)
        bs := bs.push (← `(Parser.Term.bracketedBinderF| ($x : $ty)))
        if closure || p[3].getKind == ``tyMut || (p[3].getKind == ``tyApp && p[3][0].getId == `InOutBuf) then
          muts := muts.push x
          mutTys := mutTys.push ty
        else if !p[0].isNone then
          emit (← `(doElem| let mut $x:ident := $x:ident))
    for x in muts do
      emit (← `(doElem| let mut $x:ident := $x:ident))
    modify fun s => { s with refs := muts.toList.map (·.getId), params := muts.toList.map (·.getId) }
    let retTy ← if f[9].isNone then `(Unit) else trTy f[9][1]
    let fullTy ← mutTys.foldrM (fun t acc => match acc with
      | none => return some t
      | some a => return some (← `($t × $a))) (none : Option Term)
    let fullTy ← match fullTy with
      | none => pure retTy
      | some t => `($retTy × $t)
    let ret (v : Term) : M Unit := do
      for x in muts do rejoin x.getId
      let m : Option Term ← muts.foldrM (fun (t : Ident) acc => match acc with
        | none => return some (t : Term)
        | some a => return some (← `(($t, $a)))) (none : Option Term)
      match m with
      | none => emit (← `(doElem| return $v))
      | some m => emit (← `(doElem| return ($v, $m)))
    let bodyOf (b : Syntax) : M Term := do
      let s ← get
      trBody b[1].getArgs.toList ret (do ret (← `(())))
      let t ← doTerm (← get).elems
      set s
      return t
    let body ← match alts with
      | none => bodyOf f[11]
      | some a =>
        let pats := a.arms.map (·.1)
        let rhs ← a.arms.mapM fun x => bodyOf x.2
        let discs := a.discs
        `(match $[$discs:term],* with $[| $[$pats],* => $rhs]*)
    let fullName := match self with
      | some t =>
        -- `drop` of another trait than `Drop`, and functions of a trait with the names of functions of the type
        if (name == `drop && trait != `Drop) || (trait == `StreamCipherSeekCore && headName t == `ChaChaCore) then headName t ++ trait ++ name else headName t ++ name
      | none => name
    let id := mkIdent (← fnName fullName)
    let body ← record body
    if traced then
      `(command| @[inherit_doc $(mkIdent fullName)] def $id:ident $bs:bracketedBinder* : Verif.Rust.Tr $fullTy := $body)
    else if doc.isNone then
      `(command| def $id:ident $bs:bracketedBinder* : Except Verif.Panic $fullTy := $body)
    else
      let d : TSyntax ``Parser.Command.docComment := ⟨doc[0]⟩
      `(command| $d:docComment def $id:ident $bs:bracketedBinder* : Except Verif.Panic $fullTy := $body)
  let (c, _) ← act.run { self := self, traced := traced }
  return c

def trItem (doc : Syntax) (it : Syntax) (alts : Syntax → Option Alts := fun _ => none) (traced : Bool := false) : MacroM Command := do
  match it.getKind with
  | ``iFn => trFn (if doc.isNone then it[0] else it[0].setArg 0 doc) mkNullNode none (traced := traced)
  | ``iConst =>
    let id : Ident := ⟨it[1]⟩
    let act : M Command := do
      let ty ← trTy it[3]
      let v ← trE it[5]
      emit (← `(doElem| return $v))
      let body ← doTerm (← get).elems
      if doc.isNone then
        `(command| def $id:ident ($tgtId : Verif.Rust.Target) : Except Verif.Panic $ty := $body)
      else
        let d : TSyntax ``Parser.Command.docComment := ⟨doc[0]⟩
        `(command| $d:docComment def $id:ident ($tgtId : Verif.Rust.Target) : Except Verif.Panic $ty := $body)
    let (c, _) ← act.run {}
    return c
  | ``iStruct =>
    let id : Ident := ⟨it[2]⟩
    let act : M Command := do
      let mut bs := #[]
      unless it[3].isNone do
        for g in it[3][1].getSepArgs do
          let x : Ident := ⟨g[0]⟩
          bs := bs.push (← `(Parser.Term.bracketedBinderF| ($x : Type)))
          let c : Ident := ⟨g[2]⟩
          bs := bs.push (← `(Parser.Term.bracketedBinderF| [$c $x]))
      let fs ← it[5].getSepArgs.filterM fun f => return f[3][0].getId != `PhantomData
      let xs : Array Ident := fs.map fun f => ⟨f[1]⟩
      let ts ← fs.mapM fun f => trTy f[3]
      let ds ← (xs.zip ts).mapM fun (x, t) => `(Parser.Command.structExplicitBinder| ($x : $t))
      if doc.isNone then `(command| structure $id:ident $bs:bracketedBinder* where $ds:structExplicitBinder*)
      else
        let d : TSyntax ``Parser.Command.docComment := ⟨doc[0]⟩
        `(command| $d:docComment structure $id:ident $bs:bracketedBinder* where $ds:structExplicitBinder*)
    let (c, _) ← act.run {}
    return c
  | ``iTuple =>
    let id : Ident := ⟨it[2]⟩
    let x : Ident := mkIdent `f0
    let act : M Command := do
      let mut bs := #[]
      unless it[3].isNone do
        for g in it[3][1].getSepArgs do
          let x : Ident := ⟨g[0]⟩
          bs := bs.push (← `(Parser.Term.bracketedBinderF| ($x : Type)))
          let c : Ident := ⟨g[2]⟩
          bs := bs.push (← `(Parser.Term.bracketedBinderF| [$c $x]))
      let t ← trTy it[5]
      if doc.isNone then `(command| structure $id:ident $bs:bracketedBinder* where ($x : $t))
      else
        let d : TSyntax ``Parser.Command.docComment := ⟨doc[0]⟩
        `(command| $d:docComment structure $id:ident $bs:bracketedBinder* where ($x : $t))
    let (c, _) ← act.run {}
    return c
  | ``iImpl =>
    let act : M Term := trTy it[3]
    let (self, _) ← act.run {}
    let cs ← it[5].getArgs.mapM fun f => trFn f it[1] (some self) (if it[2].isNone then .anonymous else if it[2][0].getKind == ``tyPath3 then it[2][0][4].getId else it[2][0][0].getId) (alts f[11]) traced
    return ⟨mkNullNode cs⟩
  | k => Macro.throwErrorAt it s!"item {k}"

@[macro rustCmd] def expandRust : Macro := fun stx => do
  let c ← trItem stx[0] stx[2]
  return c

/-- The text twice: as it is, and with a record of what it does. -/
@[macro rustTracedCmd] def expandRustTraced : Macro := fun stx => do
  let c ← trItem stx[0] stx[2]
  let d ← trItem stx[0] stx[2] (traced := true)
  return mkNullNode #[c, d]

end Verif.Rust
