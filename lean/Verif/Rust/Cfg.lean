import Verif.Rust.Syntax
import Verif.Model.Config
/-!
# Conditional compilation in Rust text

`cfg_if! { if #[cfg(p)] { … } else … }` and `#[cfg(p)] …`, as `rustc` does them: for every configuration first the parts whose predicate fails are
removed, then what is left is read.  `rust_cfgs! impl …` is `rust_traced! impl …` for every configuration; the functions get an argument `build`.  The items that the dispatchers of
`chacha20` use at the top of a file are read by `rust_items!`.
-/
open Lean

namespace Verif.Rust

declare_syntax_cat rs_cfg
declare_syntax_cat rs_cif
declare_syntax_cat rs_top (behavior := both)

syntax (name := cfgEq) ident " = " str : rs_cfg
syntax (name := cfgId) ident : rs_cfg
syntax (name := cfgApp) ident "(" rs_cfg,* ")" : rs_cfg

syntax (name := cifIf) "if" "#[" ident "(" rs_cfg ")" "]" rs_block ("else" rs_cif)? : rs_cif
syntax (name := cifElse) rs_block : rs_cif
syntax (name := sCfgIf) "cfg_if!" "{" rs_cif "}" : rs_stmt
syntax (name := sCfg) "#[" ident "(" rs_cfg ")" "]" rs_stmt : rs_stmt

/-- What the predicates of the dispatchers ask. -/
structure CfgEnv where
  backend : Option String
  avx512 : Bool
  arch : String
  neon : Bool

def strOf (s : Syntax) : String := s.isStrLit?.getD ""

/-- A predicate in a configuration. -/
partial def CfgEnv.holds (c : CfgEnv) (p : Syntax) : MacroM Bool := do
  match p.getKind with
  | ``cfgEq => match p[0].getId with
    | `chacha20_backend => return c.backend == some (strOf p[2])
    | `target_arch => return c.arch == strOf p[2]
    | `target_feature => if strOf p[2] == "neon" then return c.neon else Macro.throwErrorAt p "target feature"
    | _ => Macro.throwErrorAt p "predicate"
  | ``cfgId => if p[0].getId == `chacha20_avx512 then return c.avx512 else Macro.throwErrorAt p "predicate"
  | ``cfgApp =>
    let bs ← p[2].getSepArgs.mapM c.holds
    match p[0].getId, bs.toList with
    | `any, bs => return bs.any id
    | `all, bs => return bs.all id
    | `not, [b] => return !b
    | _, _ => Macro.throwErrorAt p "predicate"
  | _ => Macro.throwErrorAt p "predicate"

mutual

/-- The branch of `cfg_if!` that is left. -/
partial def CfgEnv.branch (c : CfgEnv) (s : Syntax) : MacroM (Array Syntax) := do
  match s.getKind with
  | ``cifIf =>
    if ← c.holds s[4] then c.stmts s[7][1].getArgs
    else if s[8].isNone then return #[] else c.branch s[8][1]
  | _ => c.stmts s[0][1].getArgs

/-- The statements that are left. -/
partial def CfgEnv.stmts (c : CfgEnv) (ss : Array Syntax) : MacroM (Array Syntax) := do
  let mut out := #[]
  for s in ss do
    match s.getKind with
    | ``sCfgIf => out := out ++ (← c.branch s[2])
    | ``sCfg => if ← c.holds s[3] then out := out ++ (← c.stmts #[s[6]])
    | _ => out := out.push (← c.strip s)
  return out

/-- What is left of a text. -/
partial def CfgEnv.strip (c : CfgEnv) (s : Syntax) : MacroM Syntax := do
  if s.getKind == ``blk then return s.setArg 1 (mkNullNode (← c.stmts s[1].getArgs))
  match s with
  | .node i k args => return .node i k (← args.mapM c.strip)
  | s => return s

end

/-- All configurations, with the patterns for them. -/
def cfgEnvs : MacroM (Array (CfgEnv × Array Term)) := do
  let mut out := #[]
  for (b, tb) in [(none, ← `(none)), (some "soft", ← `(some .soft)), (some "avx512", ← `(some .avx512)), (some "avx2", ← `(some .avx2)),
      (some "sse2", ← `(some .sse2))] do
    for (x, tx) in [(false, ← `(false)), (true, ← `(true))] do
      for (a, ta) in [("x86", ← `(.x86)), ("x86_64", ← `(.x86_64)), ("aarch64", ← `(.aarch64)), ("other", ← `(.other))] do
        for (n, tn) in [(false, ← `(false)), (true, ← `(true))] do
          out := out.push (⟨b, x, a, n⟩, #[tb, tx, ta, tn])
  return out

/-- The modules of backends that a text names. -/
partial def backendNames (s : Syntax) : List Name :=
  match s with
  | .node _ k args =>
    if k == ``ePath && args[0]!.getId == `backends && args[1]!.getNumArgs > 0 then [segName (args[1]![0])[1]]
    else args.toList.flatMap backendNames
  | _ => []

/-- The sizes of the patterns that take `self.tokens` apart. -/
partial def tokenSizes (s : Syntax) : List Nat :=
  match s with
  | .node _ k args =>
    if k == ``sLet && args[5]![0].getId == `self.tokens then [args[2]![1].getSepArgs.size]
    else args.toList.flatMap tokenSizes
  | _ => []

syntax (name := rustCfgsCmd) "rust_cfgs!" rs_item : command

@[macro rustCfgsCmd] def expandRustCfgs : Macro := fun stx => do
  let it := stx[1]
  let envs ← cfgEnvs
  let b : Ident := mkIdent `build
  let binder ← `(Parser.Term.bracketedBinderF| ($b : Verif.ChaCha.Config.Build))
  let discs : Array Term := #[mkIdent `build.backend, mkIdent `build.avx512Cfg, mkIdent `build.arch, mkIdent `build.target.neon]
  let act : M Term := trTy it[3]
  let (self, _) ← act.run {}
  let mut cs := #[]
  for f in it[5].getArgs do
    let texts ← envs.mapM fun (c, pats) => return (pats, ← c.strip f[11])
    cs := cs.push (← trFn f it[1] (some self) .anonymous (some ⟨binder, discs, texts⟩))
    cs := cs.push (← trFn f it[1] (some self) .anonymous (some ⟨binder, discs, texts⟩) (traced := true))
    let name := headName self ++ f[4].getId
    let pats := texts.map (·.1)
    let mods : Array Term := texts.map fun x => quote ((backendNames x.2).map fun n => n.getString!)
    let toks : Array Term := texts.map fun x => quote (tokenSizes x.2)
    cs := cs.push (← `(command| /-- The modules of backends that are named in a configuration. -/
      def $(mkIdent (name ++ `modules)) $binder:bracketedBinder : List String := match $[$discs:term],* with $[| $[$pats],* => $mods]*))
    cs := cs.push (← `(command| /-- The sizes of the patterns that take `self.tokens` apart in a configuration. -/
      def $(mkIdent (name ++ `tokens)) $binder:bracketedBinder : List Nat := match $[$discs:term],* with $[| $[$pats],* => $toks]*))
  return mkNullNode cs

/-! ## Items -/

/-- Items under conditional compilation. -/
inductive Item where
  | module (name : String)
  /-- `type name = ()` or a tuple of tokens -/
  | tokens (name : String) (of : List String)
  /-- `cpufeatures::new!(name, features…)` -/
  | detect (name : String) (features : List String)
  | compileError
  deriving DecidableEq, Repr

syntax (name := topMod) "pub" "(" ident ")" &"mod" ident ";" : rs_top
syntax (name := topType) &"type" ident " = " rs_ty ";" : rs_top
syntax (name := topNew) ident "::" ident "(" ident "," str,* ")" ";" : rs_top
syntax (name := topError) "compile_error!" "(" (str <|> ident)* ")" ";" : rs_top
syntax (name := topLet) "let" ident " = " rs ";" : rs_top
syntax (name := topCfg) "#[" ident "(" rs_cfg ")" "]" rs_top : rs_top
syntax (name := topIf) "cfg_if!" "{" "if" "#[" ident "(" rs_cfg ")" "]" "{" rs_top* "}"
  (atomic("else" "if") "#[" ident "(" rs_cfg ")" "]" "{" rs_top* "}")* ("else" "{" rs_top* "}")? "}" : rs_top

/-- A predicate of a build. -/
partial def cfgTerm (p : Syntax) : MacroM Term := do
  match p.getKind with
  | ``cfgEq => match p[0].getId, Name.mkSimple (strOf p[2]) with
    | `chacha20_backend, v => `(decide ($(mkIdent `build.backend) = some $(mkIdent (`Verif.ChaCha.Config.Flag ++ v))))
    | `target_arch, v => `(decide ($(mkIdent `build.arch) = $(mkIdent (`Verif.ChaCha.Config.Arch ++ v))))
    | `target_feature, v => return mkIdent (`build.target ++ v)
    | `feature, `rng => return mkIdent `build.rng
    | _, _ => Macro.throwErrorAt p "predicate"
  | ``cfgId => if p[0].getId == `chacha20_avx512 then return mkIdent `build.avx512Cfg else Macro.throwErrorAt p "predicate"
  | ``cfgApp =>
    let bs ← p[2].getSepArgs.mapM cfgTerm
    match p[0].getId, bs.toList with
    | `any, bs => bs.foldrM (fun x acc => `($x || $acc)) (← `(false))
    | `all, bs => bs.foldrM (fun x acc => `($x && $acc)) (← `(true))
    | `not, [x] => `(!$x)
    | _, _ => Macro.throwErrorAt p "predicate"
  | _ => Macro.throwErrorAt p "predicate"

/-- The elements of a tuple of token types or of calls of `init`. -/
def tokenNames (t : Syntax) : MacroM (List String) := do
  match t.getKind with
  | ``tyTuple => return (t[1].getSepArgs.map fun a => a[0].getId.toString).toList
  | ``eUnit => return []
  | ``eTuple => return ((#[t[1]] ++ t[3].getSepArgs).map fun a => a[0][0].getId.toString).toList
  | k => Macro.throwErrorAt t s!"tokens {k}"

mutual

partial def topTerm (s : Syntax) : MacroM Term := do
  match s.getKind with
  | ``topMod => `([Item.module $(quote s[5].getId.toString)])
  | ``topType => `([Item.tokens $(quote s[1].getId.toString) $(quote (← tokenNames s[3]))])
  | ``topLet => `([Item.tokens $(quote s[1].getId.toString) $(quote (← tokenNames s[3]))])
  | ``topNew => `([Item.detect $(quote s[4].getId.toString) $(quote (s[6].getSepArgs.map strOf).toList)])
  | ``topError => `([Item.compileError])
  | ``topCfg =>
    let c ← cfgTerm s[3]
    let t ← topTerm s[6]
    `(if $c then $t else [])
  | ``topIf =>
    let mut t ← if s[13].isNone then `([]) else topTerms s[13][2].getArgs
    for e in s[12].getArgs.reverse do
      let c ← cfgTerm e[5]
      let a ← topTerms e[9].getArgs
      t ← `(if $c then $a else $t)
    let c ← cfgTerm s[6]
    let a ← topTerms s[10].getArgs
    `(if $c then $a else $t)
  | k => Macro.throwErrorAt s s!"item {k}"

partial def topTerms (ss : Array Syntax) : MacroM Term := do
  let mut t ← `([])
  for s in ss.reverse do
    let a ← topTerm s
    t ← `($a ++ $t)
  return t

end

syntax (name := rustItemsCmd) (docComment)? "rust_items!" ident rs_top : command

@[macro rustItemsCmd] def expandRustItems : Macro := fun stx => do
  let b : Ident := mkIdent `build
  let t ← topTerm stx[3]
  let id : Ident := ⟨stx[2]⟩
  let d : TSyntax ``Parser.Command.docComment := ⟨stx[0][0]⟩
  `(command| $d:docComment def $id:ident ($b : Verif.ChaCha.Config.Build) : List Item := $t)

end Verif.Rust
