import Verif.Proof.Oblivious
/-!
# A tactic for `Obl`
-/
namespace Verif.Rust

/-- Rules for further functions of the text. -/
syntax "obl_call" : tactic
/-- Rules for further types. -/
syntax "like_ext" : tactic
/-- Rules that take apart values of further types. -/
syntax "elim_ext" : tactic

macro_rules | `(tactic| obl_call) => `(tactic| fail)
macro_rules | `(tactic| like_ext) => `(tactic| fail)
macro_rules | `(tactic| elim_ext) => `(tactic| fail)

/-- Two public values are equal. -/
syntax "pub" : tactic
/-- Two values are alike. -/
syntax "alike" : tactic

macro_rules | `(tactic| pub) => `(tactic| first
  | with_reducible rfl
  | (with_reducible refine like.isEmpty ?_; alike)
  | (with_reducible refine LikeMem.size _ _ ?_; alike)
  | (with_reducible refine LikeMem.unit _ _ ?_; alike)
  | (simp only [len, sizeOfVal, List.length_cons, List.length_nil, *]; done))

/-- The lists of instructions that are known. -/
syntax "mem_ext" : tactic
macro_rules | `(tactic| mem_ext) => `(tactic| fail)

/-- Only known instructions are used. -/
syntax "uses" : tactic
macro_rules | `(tactic| uses) => `(tactic| first
  | with_reducible exact Uses.pure _
  | with_reducible exact Uses.lift _
  | with_reducible exact Uses.loop _
  | with_reducible exact Uses.idx _ _
  | with_reducible exact Uses.instr (by mem_ext) _
  | with_reducible exact Uses.branch _
  | with_reducible exact Uses.slice _ _ _
  | with_reducible exact Uses.upd _ _ _
  | with_reducible exact Uses.splitAt _ _
  | with_reducible exact Uses.div _ _
  | with_reducible exact Uses.rem _ _)

macro_rules | `(tactic| alike) => `(tactic| first
  | assumption
  | exact like.word _ _
  | exact like.m128 _ _
  | exact like.m256 _ _
  | exact like.m512 _ _
  | like_ext
  | with_reducible exact like.rfl'
  | (with_reducible refine like.usize ?_; pub)
  | (with_reducible refine like.prod ?_ ?_ <;> alike)
  | (with_reducible refine like.yield ?_; alike)
  | (with_reducible refine like.done ?_; alike)
  | (with_reducible refine like.set ?_ _ ?_ <;> alike)
  | (with_reducible refine like.append ?_ ?_ <;> alike)
  | (with_reducible refine like.replicate _ ?_; alike)
  | (with_reducible refine like.chunk ?_ _ _; alike)
  | (with_reducible refine like.putChunk ?_ _ _ ?_ <;> alike)
  | (with_reducible refine like.putSlice ?_ ?_ ?_ ?_ <;> alike)
  | (with_reducible exact like.toLeBytes _ _)
  | (with_reducible refine like.cons ?_ ?_ <;> alike)
  | pub)

/-- Take apart the results of two runs. -/
syntax "elim" : tactic
macro_rules | `(tactic| elim) => `(tactic| first
  | with_reducible refine Elim.unit ?_
  | (with_reducible refine Elim.usize ?_; intro _)
  | (with_reducible refine Elim.nat ?_; intro _)
  | (with_reducible refine Elim.bool ?_; intro _)
  | (with_reducible refine Elim.prod ?_; elim; elim)
  | elim_ext
  | (intro _ _ h; try (have hl := like.length h)))

/-- Compare two runs of the same text. -/
syntax "obl" : tactic
/-- One step. -/
syntax "obl_step" : tactic
/-- A step that is not a sequence of steps. -/
syntax "obl_prim" : tactic

macro_rules | `(tactic| obl_prim) => `(tactic| first
  | (with_reducible refine Obl.secret ?_; (focus (alike; done)))
  | (with_reducible refine Obl.idx ?_ ?_; (focus (pub; done)); (focus (alike; done)))
  | (with_reducible refine Obl.upd ?_ ?_ ?_; (focus (pub; done)); (focus (alike; done)); (focus (alike; done)))
  | (with_reducible refine Obl.slice ?_ ?_ ?_; (focus (pub; done)); (focus (pub; done)); (focus (alike; done)))
  | (with_reducible refine Obl.splitAt ?_ ?_; (focus (pub; done)); (focus (alike; done)))
  | (with_reducible refine Obl.loop ?_; (focus (pub; done)))
  | (with_reducible refine Obl.instr ?_ ?_; (focus (mem_ext; done)); (focus (alike; done)))
  | (with_reducible refine Obl.load ?_ ?_ ?_; (focus (mem_ext; done)); (focus (pub; done)); (focus (intros; alike; done)))
  | (with_reducible refine Obl.store ?_ ?_ ?_; (focus (mem_ext; done)); (focus (pub; done)); (focus (alike; done)))
  | (with_reducible refine Obl.ptrAdd ?_ ?_ ?_ ?_; (focus (pub; done)); (focus (pub; done)); (focus (pub; done)); (focus (pub; done)))
  | (with_reducible refine Obl.transmute ?_ ?_; (focus (pub; done)); (focus (intros; alike; done)))
  | (with_reducible refine Obl.unwrap_list ?_; (focus (alike; done)))
  | (with_reducible refine Obl.nth ?_ ?_; (focus (pub; done)); (focus (alike; done)))
  | (with_reducible refine Obl.copyFromSlice ?_; (focus (alike; done)))
  | (with_reducible refine Obl.arrayOf ?_; (focus (alike; done)))
  | obl_call
  | with_reducible exact Obl.word _ _
  | with_reducible exact Obl.unit _ _
  | (with_reducible refine Obl.bind (Obl.branch ?_) ?_; (focus (pub; done)); intro _ _ h; cases h; obl; done)
  | (with_reducible refine Obl.loops ?_ ?_ ?_; (focus (pub; done)); (focus (alike; done)); intro _; elim; (try dsimp only); obl)
  | (with_reducible refine Obl.mapM_like ?_ ?_; (focus (alike; done)); elim; (try dsimp only); obl)
  | (with_reducible refine Obl.fromFn ?_ ?_; (focus (pub; done)); intro _; (try dsimp only); obl))

macro_rules | `(tactic| obl_step) => `(tactic| first
  | (with_reducible refine Obl.bind_same ?_ ?_; (focus (uses; done)); intro _; (try dsimp only))
  | (with_reducible refine Obl.bind (Obl.branch ?_) ?_; (focus (pub; done)); intro _ _ h; cases h)
  | (with_reducible refine Obl.bind_like ?_ ?_; (focus (obl_prim; done)); elim; (try dsimp only))
  | (with_reducible refine Obl.ite ?_ ?_ <;> intro _)
  | (with_reducible refine Obl.pure ?_; alike)
  | with_reducible exact Obl.error _ _
  | obl_prim)

macro_rules | `(tactic| obl) => `(tactic| repeat obl_step)

end Verif.Rust
