import Verif.Proof.Stream
/-!
# Generic consequences, for seekable and non-seekable objects alike

`ι` is the type of calls of the object, `emb` its reads and encryptions, `toSeek` the call as the caller books it.
-/
namespace Verif
open Spec

/-- Interface between a cursor with calls `ι` and the plain cursor of reads and encryptions. -/
structure IoLike {ι : Type} (u : Nat) (ok : ι → Prop) (cstep : Nat → ι → Obs × Nat) (emb : Op → ι) (toSeek : ι → SeekOp)
    (st : Nat → U8) (limit : Option Nat) : Prop where
  io : ∀ p op, cstep p (emb op) = Cursor.io st limit p op
  okEmb : ∀ op, FitsUsize u op → ok (emb op)
  book : ∀ p i, track p (toSeek i) (cstep p i).1 = (cstep p i).2
  within : ∀ p, Within limit p → ∀ i, Within limit (cstep p i).2

theorem ioLike_seek (u bs M : Nat) (st : Nat → U8) :
    IoLike u (FitsSeek u bs M) (Cursor.step bs st (some (bs * M))) .io id st (some (bs * M)) where
  io _ _ := rfl
  okEmb _ h := h
  book p i := track_step bs st _ p i
  within p hp i := Cursor.step_within bs st _ p hp i

theorem ioLike_plain (u : Nat) (st : Nat → U8) (limit : Option Nat) :
    IoLike u (FitsUsize u) (Cursor.io st limit) id .io st limit where
  io _ _ := rfl
  okEmb _ h := h
  book p i := track_step 1 st limit p (.io i)
  within p hp i := Cursor.step_within 1 st limit p hp (.io i)

section
variable {χ σ ι : Type} {step : χ → σ → ι → Except Panic (Obs × σ)} {ok : ι → Prop} {cstep : Nat → ι → Obs × Nat}
  {emb : Op → ι} {toSeek : ι → SeekOp} {st : Nat → U8} {limit : Option Nat} {u : Nat}

theorem IoLike.run (L : IoLike u ok cstep emb toSeek st limit) (h : List Op) (p : Nat) :
    Cursor.run cstep (h.map emb) p = Cursor.run (Cursor.io st limit) h p := by
  induction h generalizing p with
  | nil => rfl
  | cons op h ih => simp only [List.map_cons, Cursor.run, L.io, ih]

theorem IoLike.trackAll (L : IoLike u ok cstep emb toSeek st limit) (h : List ι) (p : Nat) :
    trackAll p (h.map toSeek) (Cursor.run cstep h p).1 = (Cursor.run cstep h p).2 := by
  induction h generalizing p with
  | nil => rfl
  | cons op h ih => simp only [List.map_cons, Cursor.run, Spec.trackAll, L.book, ih]

theorem IoLike.runWithin (L : IoLike u ok cstep emb toSeek st limit) (h : List ι) (p : Nat) (hp : Within limit p) :
    Within limit (Cursor.run cstep h p).2 := by
  induction h generalizing p with
  | nil => exact hp
  | cons op h ih => exact ih _ (L.within p hp op)

/-- If a series of encryptions on the cursor all succeeded, they stayed inside the limit. -/
theorem Cursor.applies_within (st : Nat → U8) (limit : Option Nat) (cs : List (List U8)) (p : Nat) (hp : Within limit p)
    (out : List U8) (h : outBytes (Cursor.run (Cursor.io st limit) (cs.map .apply) p).1 = some out) :
    Within limit (p + cs.flatten.length) := by
  induction cs generalizing p out with
  | nil => exact hp
  | cons c cs ih =>
    simp only [List.map_cons, Cursor.run, Cursor.io] at h
    split at h
    · rename_i hc
      simp only [outBytes, Option.map_eq_some_iff] at h
      obtain ⟨o, h1, _⟩ := h
      have := ih _ hc o h1
      simpa only [List.flatten_cons, List.length_append, Nat.add_assoc] using this
    · simp only [outBytes] at h
      cases h

theorem applies_snd (emb : Op → ι) (cs : List (χ × List U8)) :
    (applies emb cs).map (·.2) = ((cs.map (·.2)).map Op.apply).map emb := by
  simp only [applies, List.map_map]
  rfl

theorem applies_ok (L : IoLike u ok cstep emb toSeek st limit) (cs : List (χ × List U8))
    (h : ∀ e ∈ cs, e.2.length < 2 ^ u) : ∀ e ∈ applies emb cs, ok e.2 := by
  intro e he
  obtain ⟨e', hm, rfl⟩ := List.mem_map.1 he
  exact L.okEmb _ (h e' hm)

theorem Spec.Simulates.applies_run (L : IoLike u ok cstep emb toSeek st limit) {w : σ} {p : Nat} (hs : Simulates step ok cstep w p)
    (cs : List (χ × List U8)) (hcs : ∀ e ∈ cs, e.2.length < 2 ^ u) :
    ∃ v, runHistory step (applies emb cs) w =
        .ok ((Cursor.run (Cursor.io st limit) ((cs.map (·.2)).map .apply) p).1, v) ∧
      Simulates step ok cstep v (Cursor.run (Cursor.io st limit) ((cs.map (·.2)).map .apply) p).2 := by
  obtain ⟨v, hv⟩ := hs _ (applies_ok L cs hcs)
  have h2 := (hs.after _ (applies_ok L cs hcs) _ _ hv).2
  rw [applies_snd, L.run] at hv h2
  exact ⟨v, hv, h2⟩

/-- The position according to the caller's books. -/
theorem Spec.Simulates.reach (L : IoLike u ok cstep emb toSeek st limit) {w₀ : σ} (hs : Simulates step ok cstep w₀ 0)
    (h : List (χ × ι)) (hh : ∀ e ∈ h, ok e.2) (os : List Obs) (w : σ) (he : runHistory step h w₀ = .ok (os, w)) :
    Simulates step ok cstep w (Spec.trackAll 0 (h.map fun e => toSeek e.2) os) ∧
      Within limit (Spec.trackAll 0 (h.map fun e => toSeek e.2) os) := by
  obtain ⟨h1, h2⟩ := hs.after h hh w os he
  have h3 := L.trackAll (h.map (·.2)) 0
  rw [← h1, List.map_map] at h3
  have h4 := L.runWithin (h.map (·.2)) 0 (by intro L _; exact Nat.zero_le _)
  rw [← h3] at h2 h4
  exact ⟨h2, h4⟩

/-- Decryption inverts encryption. -/
theorem decrypt_generic (L : IoLike u ok cstep emb toSeek st limit) {w w' : σ} {p : Nat}
    (hp : Within limit p)
    (hs : Simulates step ok cstep w p) (hs' : Simulates step ok cstep w' p)
    (cs : List (χ × List U8)) (hcs : ∀ e ∈ cs, e.2.length < 2 ^ u) (os : List Obs) (v : σ)
    (henc : runHistory step (applies emb cs) w = .ok (os, v)) (ct : List U8) (hct : outBytes os = some ct)
    (cs' : List (χ × List U8)) (hcs' : ∀ e ∈ cs', e.2.length < 2 ^ u) (hmsg : message cs' = ct) :
    ∃ os' v', runHistory step (applies emb cs') w' = .ok (os', v') ∧ outBytes os' = some (message cs) := by
  obtain ⟨v1, h1, _⟩ := hs.applies_run L cs hcs
  rw [henc] at h1
  simp only [Except.ok.injEq, Prod.mk.injEq] at h1
  rw [h1.1] at hct
  have hw := Cursor.applies_within st limit _ p hp ct hct
  have hout := (Cursor.run_applies st limit _ p hw).1
  rw [hct] at hout
  obtain ⟨v2, h2, _⟩ := hs'.applies_run L cs' hcs'
  refine ⟨_, v2, h2, ?_⟩
  have hlen : (message cs').length = (message cs).length := by
    rw [hmsg, Option.some.inj hout, List.length_zipWith, window_length]
    simp only [message, Nat.min_self]
  have := (Cursor.run_applies st limit (cs'.map (·.2)) p (by
    have := hlen
    simp only [message] at this
    rw [this]; exact hw)).1
  rw [this]
  show some (List.zipWith (· ^^^ ·) (message cs') (window st p (message cs').length)) = _
  rw [hlen, hmsg, Option.some.inj hout]
  exact congrArg some (window_xor_window st (message cs) p)

theorem Cursor.applies_single (st : Nat → U8) (limit : Option Nat) (cs : List (List U8)) (p : Nat) (hp : Within limit p) :
    outBytes (Cursor.run (Cursor.io st limit) (cs.map .apply) p).1 =
        outBytes [(Cursor.io st limit p (.apply cs.flatten)).1] ∧
      (∀ out, outBytes (Cursor.run (Cursor.io st limit) (cs.map .apply) p).1 = some out →
        (Cursor.run (Cursor.io st limit) (cs.map .apply) p).2 = (Cursor.io st limit p (.apply cs.flatten)).2) := by
  by_cases hw : Within limit (p + cs.flatten.length)
  · obtain ⟨h1, h2⟩ := Cursor.run_applies st limit cs p hw
    rw [h1, h2, Cursor.io, if_pos hw]
    refine ⟨?_, fun _ _ => rfl⟩
    simp only [outBytes, Option.map_some, List.append_nil]
  · have h1 : outBytes (Cursor.run (Cursor.io st limit) (cs.map .apply) p).1 = none := by
      cases h : outBytes (Cursor.run (Cursor.io st limit) (cs.map .apply) p).1 with
      | none => rfl
      | some out => exact absurd (Cursor.applies_within st limit cs p hp out h) hw
    rw [h1, Cursor.io, if_neg hw]
    exact ⟨rfl, fun _ h => by cases h⟩

/-- Cutting a message into pieces changes nothing. -/
theorem chunks_generic (L : IoLike u ok cstep emb toSeek st limit) {w : σ} {p : Nat} (hp : Within limit p)
    (hs : Simulates step ok cstep w p) (cs : List (χ × List U8)) (x : χ) (hcs : ∀ e ∈ cs, e.2.length < 2 ^ u)
    (htot : (message cs).length < 2 ^ u) :
    ∃ os v o v', runHistory step (applies emb cs) w = .ok (os, v) ∧
      runHistory step [(x, emb (.apply (message cs)))] w = .ok ([o], v') ∧
      outBytes os = outBytes [o] ∧ (∀ out, outBytes os = some out → Indist step ok v v') := by
  obtain ⟨v, h1, h2⟩ := hs.applies_run L cs hcs
  obtain ⟨v', h3, h4⟩ := hs.applies_run L [(x, message cs)] (by
    intro e he; rw [List.mem_singleton.1 he]; exact htot)
  obtain ⟨h5, h6⟩ := Cursor.applies_single st limit (cs.map (·.2)) p hp
  refine ⟨_, v, _, v', h1, h3, h5, ?_⟩
  intro out hout
  rw [h6 out hout] at h2
  exact fun k k' hk hok => h2.same h4 k k' hk hok

theorem zip_zeros (l : List U8) (n : Nat) (h : l.length = n) :
    List.zipWith (· ^^^ ·) (List.replicate n (0 : U8)) l = l := by
  apply List.ext_getElem
  · simp [h]
  · intro i h1 h2; simp

/-- Writing is encrypting zeros. -/
theorem write_generic (L : IoLike u ok cstep emb toSeek st limit) {w : σ} {p : Nat}
    (hs : Simulates step ok cstep w p) (x y : χ) (buf : List U8) (hbuf : buf.length < 2 ^ u) :
    ∃ r o₁ o₂ v v', runHistory step [(x, emb (.write buf))] w = .ok ([.data r o₁], v) ∧
      runHistory step [(y, emb (.apply (List.replicate buf.length 0)))] w = .ok ([.data r o₂], v') ∧
      (o₁ = match r with | .ok () => o₂ | .error _ => buf) ∧ Indist step ok v v' := by
  have e1 : ∀ e ∈ [(x, emb (.write buf))], ok e.2 := by
    intro e he; rw [List.mem_singleton.1 he]; exact L.okEmb _ hbuf
  have e2 : ∀ e ∈ [(y, emb (.apply (List.replicate buf.length 0)))], ok e.2 := by
    intro e he; rw [List.mem_singleton.1 he]; exact L.okEmb _ (by simpa [FitsUsize] using hbuf)
  obtain ⟨v, h1⟩ := hs _ e1
  obtain ⟨v', h2⟩ := hs _ e2
  have s1 := (hs.after _ e1 _ _ h1).2
  have s2 := (hs.after _ e2 _ _ h2).2
  simp only [List.map_cons, List.map_nil, Cursor.run, L.io, Cursor.io, List.length_replicate] at h1 h2 s1 s2
  by_cases hw : Within limit (p + buf.length)
  · simp only [if_pos hw] at h1 h2 s1 s2
    rw [zip_zeros _ _ (window_length _ _ _)] at h2
    exact ⟨_, _, _, v, v', h1, h2, rfl, fun k k' hk hok => s1.same s2 k k' hk hok⟩
  · simp only [if_neg hw] at h1 h2 s1 s2
    exact ⟨_, _, _, v, v', h1, h2, rfl, fun k k' hk hok => s1.same s2 k k' hk hok⟩

/-- What encryption XORs into the data is what writing would have stored. -/
theorem apply_write_generic (L : IoLike u ok cstep emb toSeek st limit) {w : σ} {p : Nat}
    (hs : Simulates step ok cstep w p) (x y : χ) (data buf : List U8) (hlen : buf.length = data.length)
    (hd : data.length < 2 ^ u) :
    ∃ r o₁ o₂ v v', runHistory step [(x, emb (.write buf))] w = .ok ([.data r o₁], v) ∧
      runHistory step [(y, emb (.apply data))] w = .ok ([.data r o₂], v') ∧
      (r = .ok () → o₂ = List.zipWith (· ^^^ ·) data o₁) ∧ (r ≠ .ok () → o₁ = buf ∧ o₂ = data) ∧ Indist step ok v v' := by
  have e1 : ∀ e ∈ [(x, emb (.write buf))], ok e.2 := by
    intro e he; rw [List.mem_singleton.1 he]; exact L.okEmb _ (by rw [← hlen] at hd; exact hd)
  have e2 : ∀ e ∈ [(y, emb (.apply data))], ok e.2 := by
    intro e he; rw [List.mem_singleton.1 he]; exact L.okEmb _ hd
  obtain ⟨v, h1⟩ := hs _ e1
  obtain ⟨v', h2⟩ := hs _ e2
  have s1 := (hs.after _ e1 _ _ h1).2
  have s2 := (hs.after _ e2 _ _ h2).2
  simp only [List.map_cons, List.map_nil, Cursor.run, L.io, Cursor.io, hlen] at h1 h2 s1 s2
  by_cases hw : Within limit (p + data.length)
  · simp only [if_pos hw] at h1 h2 s1 s2
    exact ⟨_, _, _, v, v', h1, h2, fun _ => rfl, fun h => absurd rfl h, fun k k' hk hok => s1.same s2 k k' hk hok⟩
  · simp only [if_neg hw] at h1 h2 s1 s2
    exact ⟨_, _, _, v, v', h1, h2, fun h => (by cases h), fun _ => ⟨rfl, rfl⟩, fun k k' hk hok => s1.same s2 k k' hk hok⟩

end

end Verif
