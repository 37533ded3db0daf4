import Verif.Model.Wrapper
/-!
# Specification of a byte-level stream cipher object: a cursor over an infinite byte stream

The object is a position `p`.  `limit = some L` means that only bytes `0 .. L-1` may be consumed.
(Only the types of calls and observations are shared with the model.)
-/
namespace Verif.Spec

/-- Bytes `p, p+1, …, p+len-1` of a stream. -/
def window (stream : Nat → U8) (p len : Nat) : List U8 := (List.range len).map fun i => stream (p + i)

/-- May the first `q` bytes be used? -/
def Within (limit : Option Nat) (q : Nat) : Prop := ∀ L, limit = some L → q ≤ L

instance (limit : Option Nat) (q : Nat) : Decidable (Within limit q) :=
  match limit with
  | none => isTrue (by intro L h; cases h)
  | some L => if h : q ≤ L then isTrue (by intro L' e; cases e; exact h)
      else isFalse (fun hw => h (hw L rfl))

/-- Read or encrypt `buf.length` bytes at position `p`; refuse without any effect if that would pass the limit. -/
def Cursor.io (stream : Nat → U8) (limit : Option Nat) (p : Nat) : Op → Obs × Nat
  | .apply data =>
    if Within limit (p + data.length) then
      (.data (.ok ()) (List.zipWith (· ^^^ ·) data (window stream p data.length)), p + data.length)
    else (.data (.error .streamCipherError) data, p)
  | .write buf =>
    if Within limit (p + buf.length) then
      (.data (.ok ()) (window stream p buf.length), p + buf.length)
    else (.data (.error .streamCipherError) buf, p)

/-- Seekable cursor with block size `bs`.  The position is reported if the end of the block it lies in
fits the caller's integer type. -/
def Cursor.step (bs : Nat) (stream : Nat → U8) (limit : Option Nat) (p : Nat) : SeekOp → Obs × Nat
  | .io op => Cursor.io stream limit p op
  | .seek q => if Within limit q then (.done (.ok ()), q) else (.done (.error .overflowError), p)
  | .pos snMax =>
    if (p + bs - 1) / bs * bs ≤ snMax then (.num (.ok p), p) else (.num (.error .overflowError), p)

/-- Run a history on the cursor. -/
def Cursor.run {ι : Type} (step : Nat → ι → Obs × Nat) : List ι → Nat → List Obs × Nat
  | [], p => ([], p)
  | op :: h, p =>
    let (o, p) := step p op
    let (os, p) := Cursor.run step h p
    (o :: os, p)

/-- The object `w` cannot be told from the cursor at position `p`: every history of allowed calls runs without panic and
shows the caller what the cursor shows.  `χ` is the choice of circumstances made anew at each call. -/
def Simulates {χ σ ι : Type} (step : χ → σ → ι → Except Panic (Obs × σ)) (ok : ι → Prop)
    (cstep : Nat → ι → Obs × Nat) (w : σ) (p : Nat) : Prop :=
  ∀ h : List (χ × ι), (∀ e ∈ h, ok e.2) →
    ∃ w', runHistory step h w = .ok ((Cursor.run cstep (h.map (·.2)) p).1, w')

/-- Calls whose buffer length fits a `usize` of `u` bits. -/
def FitsUsize (u : Nat) : Op → Prop
  | .apply data => data.length < 2 ^ u
  | .write buf => buf.length < 2 ^ u

/-- The same for seekable objects with `M` blocks of `bs` bytes: a seek goes inside the stream (up to and including its
end) or past the last block the counter can express (and is refused).  Seeks into the one block in
between are the subject of a separate theorem. -/
def FitsSeek (u bs M : Nat) : SeekOp → Prop
  | .io op => FitsUsize u op
  | .seek q => q ≤ bs * M ∨ bs * (M + 1) ≤ q
  | .pos _ => True

/-- Seekable cipher object = cursor over `stream`, `M` blocks of `bs` bytes. -/
def IsSeekStream {χ : Type} {bs : Nat} (u : Nat) (C : SeekCore bs χ) (stream : Nat → U8) (M : Nat) (w : Wrapper bs C.σ)
    (p : Nat) : Prop :=
  Simulates (fun x w op => Wrapper.seekStep C x w op) (FitsSeek u bs M) (Cursor.step bs stream (some (bs * M))) w p

/-- Non-seekable cipher object = cursor over `stream`. -/
def IsStream {χ : Type} {bs : Nat} (u : Nat) (C : Core bs χ) (stream : Nat → U8) (limit : Option Nat) (w : Wrapper bs C.σ)
    (p : Nat) : Prop :=
  Simulates (fun x w op => Wrapper.step C x w op) (FitsUsize u) (Cursor.io stream limit) w p

/-! ### The block at the top of the counter range

The counter can express one block more (number `M`) than may be used.  A seek into the middle of that block is accepted; the
block is generated and the counter wraps to 0.  From there the object reads the rest of block `M` and then the stream from its
very beginning.  The cursor below covers this: its state is a mark `r`; marks from `bs` up stand for position `r - bs`, marks
below `bs` for byte `r` of block `M`. -/

/-- Block `M` put in front of the stream. -/
def edgeStream (bs : Nat) (stream : Nat → U8) (M : Nat) (r : Nat) : U8 := if r < bs then stream (bs * M + r) else stream (r - bs)

/-- Cursor with all seeks allowed. -/
def Edge.step (bs : Nat) (stream : Nat → U8) (M : Nat) (r : Nat) : SeekOp → Obs × Nat
  | .io op => Cursor.io (edgeStream bs stream M) (some (bs + bs * M)) r op
  | .seek q =>
    if q ≤ bs * M then (.done (.ok ()), bs + q)
    else if q < bs * M + bs then (.done (.ok ()), q - bs * M)
    else (.done (.error .overflowError), r)
  | .pos snMax =>
    if bs ≤ r ∧ (r - bs + bs - 1) / bs * bs ≤ snMax then (.num (.ok (r - bs)), r) else (.num (.error .overflowError), r)

/-- Buffers fit a `usize`; no condition on seeks. -/
def FitsAny (u : Nat) : SeekOp → Prop
  | .io op => FitsUsize u op
  | _ => True

/-- Bytes delivered by a sequence of successful reads/encryptions, concatenated (`none` if one of them failed). -/
def outBytes : List Obs → Option (List U8)
  | [] => some []
  | .data (.ok ()) out :: os => (outBytes os).map (out ++ ·)
  | _ :: _ => none

/-- Byte position according to the caller's own bookkeeping: the target of the last successful seek, or 0, plus the number of
bytes successfully processed since. -/
def track (p : Nat) : SeekOp → Obs → Nat
  | .io (.apply data), .data (.ok ()) _ => p + data.length
  | .io (.write buf), .data (.ok ()) _ => p + buf.length
  | .seek q, .done (.ok ()) => q
  | _, _ => p

/-- Bookkeeping over a history. -/
def trackAll : Nat → List SeekOp → List Obs → Nat
  | p, op :: h, o :: os => trackAll (track p op o) h os
  | p, _, _ => p

/-- A message encrypted in pieces, each under circumstances of its own. -/
def applies {χ ι : Type} (emb : Op → ι) (cs : List (χ × List U8)) : List (χ × ι) := cs.map fun e => (e.1, emb (.apply e.2))

/-- The bytes of a chunked message. -/
def message {χ : Type} (cs : List (χ × List U8)) : List U8 := (cs.map (·.2)).flatten

/-- Two objects that no sequence of allowed calls can tell apart, whatever the circumstances of the calls. -/
def Indist {χ σ ι : Type} (step : χ → σ → ι → Except Panic (Obs × σ)) (ok : ι → Prop) (w w' : σ) : Prop :=
  ∀ k k' : List (χ × ι), k.map (·.2) = k'.map (·.2) → (∀ e ∈ k, ok e.2) →
    ∃ os v v', runHistory step k w = .ok (os, v) ∧ runHistory step k' w' = .ok (os, v')

end Verif.Spec
