import Verif.Proof.Work
import Verif.Props.Sample
/-!
# Every block is generated once, and only when it is needed (C75)
-/
namespace Verif
open Spec

/-- **C75**.  The number of blocks that a seekable cipher object generates over any history of calls is exactly the number of those that
the caller's positions require: the blocks that begin inside the bytes read, plus one for each jump into the middle of a block.  Refused
calls and enquiries generate nothing, and the division of the work between single blocks, groups and tails of groups makes no difference. -/
theorem C75_seek (u : Nat) (c : SeekCipher) (h : List (ChaCha.Env × SeekOp)) (hh : ∀ e ∈ h, c.Allowed u e.2) :
    (c.core u).meter (c.create u) h =
      .ok ((Cursor.run (Cursor.step 64 c.stream (some (64 * c.blocks))) (h.map (·.2)) 0).1,
        totalWork 64 (some (64 * c.blocks)) (h.map (·.2)) 0) := by
  obtain ⟨Rel, law, s₀, hc, hr⟩ := c.law u
  have h0 : MAt c.block (by decide) Rel (some c.blocks) (Wrapper.fromCore (bs := 64) s₀).withMeter 0 0 := by
    obtain ⟨⟨n, h1, h2, h3⟩, h4, h5, h6⟩ := At.fromCore (ks := c.block) (by decide : 0 < 64) _ hr (some c.blocks)
    exact ⟨⟨⟨n, h1, h2, h3⟩, h4, h5, h6⟩, rfl⟩
  obtain ⟨w', h1, h2⟩ := seekHistory_metered law (by decide) h _ 0 0 h0 hh
  rw [hc]
  show (runHistory (fun x w op => Wrapper.seekStep (c.core u).metered x w op) h (Wrapper.fromCore s₀).withMeter >>=
    fun r => pure (r.1, r.2.core.2)) = _
  rw [h1]
  show Except.ok (_, w'.core.2) = _
  rw [h2, Nat.zero_add]
  rfl

/-- 300 bytes, a jump back to byte 70, 10 bytes, a jump to byte 128, 1 byte: 5 + 1 + 0 + 0 + 1 blocks. -/
example (l : List (ChaCha.Env × SeekOp)) (hl : l.map (·.2) = [.io (.write (List.replicate 300 0)), .seek 70, .io (.write (List.replicate 10 0)),
      .seek 128, .io (.write [0])]) :
    ((Sample.chacha20.core 64).meter (Sample.chacha20.create 64) l).map (·.2) = .ok 7 := by
  rw [C75_seek]
  · simp only [Except.map, hl]
    have : totalWork 64 (some (64 * Sample.chacha20.blocks)) [.io (.write (List.replicate 300 0)), .seek 70, .io (.write (List.replicate 10 0)),
      .seek 128, .io (.write [0])] 0 = 7 := by decide +kernel
    rw [this]
  · intro e he
    have hm : e.2 ∈ l.map (·.2) := List.mem_map_of_mem he
    rw [hl] at hm
    simp only [List.mem_cons, List.not_mem_nil, or_false] at hm
    rcases hm with h | h | h | h | h <;> rw [h]
    · exact (show (List.replicate 300 (0 : U8)).length < 2 ^ 64 by rw [List.length_replicate]; decide)
    · exact .inl (by decide)
    · exact (show (List.replicate 10 (0 : U8)).length < 2 ^ 64 by rw [List.length_replicate]; decide)
    · exact .inl (by decide)
    · exact (show [(0 : U8)].length < 2 ^ 64 by decide)

/-! ### What the count amounts to -/

/-- Position after a history. -/
def Spec.places (limit : Option Nat) (h : List SeekOp) (p : Nat) : Nat := h.foldl (place limit) p

theorem place_io_le (limit : Option Nat) (p : Nat) (op : Op) : p ≤ place limit p (.io op) := by
  simp only [place]; split <;> omega

theorem places_io_le (limit : Option Nat) (h : List Op) : ∀ p, p ≤ places limit (h.map .io) p := by
  induction h with
  | nil => intro p; exact Nat.le_refl p
  | cons op h ih => intro p; exact Nat.le_trans (place_io_le limit p op) (ih _)

/-- **C75**.  Without jumps the count does not depend on how the calls divide the stream, nor on refused calls among them: it is the
number of blocks that have begun before the position reached, each of them generated once. -/
theorem C75_reads (bs : Nat) (limit : Option Nat) (h : List Op) (p : Nat) :
    totalWork bs limit (h.map .io) p = begun bs (places limit (h.map .io) p) - begun bs p := by
  induction h generalizing p with
  | nil => exact (Nat.sub_self _).symm
  | cons op h ih =>
    show work bs limit p (.io op) + totalWork bs limit (h.map .io) (place limit p (.io op)) =
      begun bs (places limit (h.map .io) (place limit p (.io op))) - begun bs p
    rw [ih, place_io_work]
    have h1 := begun_mono bs _ _ (place_io_le limit p op)
    have h2 := begun_mono bs _ _ (places_io_le limit h (place limit p (.io op)))
    omega

example : totalWork 64 (some 1000) ([.write (List.replicate 30 0), .apply (List.replicate 30 0), .write (List.replicate 2000 0),
    .write (List.replicate 5 0)].map .io) 0 = 2 := by
  rw [C75_reads]; decide +kernel

/-- **C75**.  A call never generates more blocks than its buffer would fill, rounded up, and never none if it needs bytes beyond the
block at hand. -/
theorem C75_call (bs : Nat) (hbs : 0 < bs) (limit : Option Nat) (p : Nat) (op : Op) :
    work bs limit p (.io op) ≤ (opLen op + bs - 1) / bs ∧
    (Within limit (p + opLen op) → bs * begun bs p < p + opLen op → 0 < work bs limit p (.io op)) := by
  have key : ∀ a b : Nat, begun bs (a + b) ≤ begun bs a + begun bs b := by
    intro a b
    unfold begun
    have ha := Nat.div_add_mod (a + bs - 1) bs
    have hb := Nat.div_add_mod (b + bs - 1) bs
    have hma := Nat.mod_lt (a + bs - 1) hbs
    have hmb := Nat.mod_lt (b + bs - 1) hbs
    refine Nat.le_of_lt_succ ((Nat.div_lt_iff_lt_mul hbs).2 ?_)
    rw [Nat.mul_comm, Nat.mul_succ, Nat.mul_add]
    omega
  constructor
  · simp only [work]
    split
    · have := key p (opLen op)
      have e : begun bs (opLen op) = (opLen op + bs - 1) / bs := rfl
      omega
    · exact Nat.zero_le _
  · intro hw hlt
    simp only [work]
    rw [if_pos hw]
    refine Nat.sub_pos_of_lt ?_
    have e : begun bs (p + opLen op) = (p + opLen op + bs - 1) / bs := rfl
    rw [e]
    refine (Nat.le_div_iff_mul_le hbs).2 ?_
    rw [Nat.succ_mul, Nat.mul_comm]
    omega

example : work 64 none 60 (.io (.write (List.replicate 64 0))) = 1 ∧ work 64 none 60 (.io (.write (List.replicate 70 0))) = 2 := by
  decide +kernel

/-! ### HC-256 and Rabbit -/

theorem meter_plain {bs u : Nat} {χ : Type} {C : Core bs χ} {ks : Nat → Vector U8 bs} {Rel : C.σ → Nat → Prop}
    (law : CoreLaw C u ks Rel none) (hbs : 0 < bs) (x : Except Panic (Wrapper bs C.σ)) (s₀ : C.σ) (hx : x = .ok (Wrapper.fromCore s₀))
    (hr : Rel s₀ 0) (h : List (χ × Op)) (hh : ∀ e ∈ h, FitsUsize u e.2) :
    C.meter x h = .ok ((Cursor.run (Cursor.io (byteStream ks hbs) none) (h.map (·.2)) 0).1,
      totalWork bs none (h.map fun e => .io e.2) 0) := by
  have h0 : MAt ks hbs Rel none (Wrapper.fromCore (bs := bs) s₀).withMeter 0 0 := by
    obtain ⟨⟨n, h1, h2, h3⟩, h4, h5, h6⟩ := At.fromCore (ks := ks) hbs _ hr none
    exact ⟨⟨⟨n, h1, h2, h3⟩, h4, h5, h6⟩, rfl⟩
  obtain ⟨w', h1, h2⟩ := history_metered law hbs h _ 0 0 h0 hh
  rw [hx]
  show (runHistory (fun x w op => Wrapper.step C.metered x w op) h (Wrapper.fromCore s₀).withMeter >>= fun r => pure (r.1, r.2.core.2)) = _
  rw [h1]
  show Except.ok (_, w'.core.2) = _
  rw [h2, Nat.zero_add]
  rfl

/-- **C75**, HC-256 (blocks of 4 bytes). -/
theorem C75_hc256 (m : Mode) (u : Nat) (hu : 16 ≤ u) (key iv : Vector U8 32) (h : List (Unit × Op)) (hh : ∀ e ∈ h, FitsUsize u e.2) :
    (Hc256.core m u).meter (Hc256.cipher m u key iv) h =
      .ok ((Cursor.run (Cursor.io (PlainCipher.hc256 m key iv).stream none) (h.map (·.2)) 0).1,
        totalWork 4 none (h.map fun e => .io e.2) 0) := by
  obtain ⟨s, hs, hr⟩ := Hc256.new_eq m hu key iv
  exact meter_plain (Hc256.coreLaw m hu key iv) (by decide) _ s (by rw [Hc256.cipher, hs]; rfl) hr h hh

example : totalWork 4 none ([.write [0, 0, 0, 0, 0], .apply [1, 2], .apply [3, 4]].map .io) 0 = 3 := by decide +kernel

/-- **C75**, Rabbit with an IV and without (blocks of 16 bytes). -/
theorem C75_rabbit (m : Mode) (u : Nat) (key : Vector U8 16) (iv : Vector U8 8) (h : List (Unit × Op)) (hh : ∀ e ∈ h, FitsUsize u e.2) :
    (Rabbit.core m).meter (Rabbit.cipher m key iv) h =
      .ok ((Cursor.run (Cursor.io (PlainCipher.rabbit m key iv).stream none) (h.map (·.2)) 0).1,
        totalWork 16 none (h.map fun e => .io e.2) 0) ∧
    (Rabbit.core m).meter (Rabbit.cipherKeyOnly m key) h =
      .ok ((Cursor.run (Cursor.io (PlainCipher.rabbitKeyOnly m key).stream none) (h.map (·.2)) 0).1,
        totalWork 16 none (h.map fun e => .io e.2) 0) :=
  ⟨meter_plain (Rabbit.coreLaw m u _) (by decide) _ _
      (by rw [Rabbit.cipher, Rabbit.setupKey_eq, Rabbit.ok_bind, Rabbit.setupIv_eq]; rfl) (Rabbit.rel_iv key iv) h hh,
    meter_plain (Rabbit.coreLaw m u _) (by decide) _ _
      (by rw [Rabbit.cipherKeyOnly, Rabbit.setupKey_eq]; rfl) (Rabbit.rel_keyOnly key) h hh⟩

example : totalWork 16 none ([.write (List.replicate 16 0), .apply [1, 2], .apply (List.replicate 14 0)].map .io) 0 = 2 := by decide +kernel

end Verif
