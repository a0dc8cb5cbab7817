import Verif.Lemmas.Frame
/-! The stream codec: one-step facts, fuel, chunking. -/

namespace Amqp

/-- States the codec can be in: a frame it waits for has at least one byte. -/
def DecodeState.ok : DecodeState → Prop
  | .frameHeader => True
  | .frame n => 0 < n

section
variable {α : Type} {decode : Bytes → Except Err (α × Bytes)} {max : Nat}

theorem take_append_of_le {l l' : List α} {n : Nat} (h : n ≤ l.length) : (l ++ l').take n = l.take n := by
  rw [List.take_append_of_le_length h]

theorem codecFrame_ready {n : Nat} {buf : Bytes} {a st' buf'} (h : codecFrame decode n buf = (.ready a, st', buf')) :
    n ≤ buf.length ∧ st' = .frameHeader ∧ buf' = buf.drop n ∧ decode (buf.take n) = .ok (a, []) := by
  rw [codecFrame] at h
  split at h
  · simp at h
  · rename_i hl
    cases hd : decode (buf.take n) with
    | error e => simp [hd] at h
    | ok v =>
      obtain ⟨a', left⟩ := v
      simp only [hd] at h
      split at h
      · rename_i hleft
        simp only [Prod.mk.injEq, Poll.ready.injEq] at h
        obtain ⟨rfl, rfl, rfl⟩ := h
        subst hleft
        exact ⟨by omega, rfl, rfl, rfl⟩
      · simp at h

theorem codecFrame_error {n : Nat} {buf : Bytes} {e st' buf'} (h : codecFrame decode n buf = (.error e, st', buf')) :
    n ≤ buf.length ∧ st' = .frame n ∧ buf' = buf.drop n ∧
      ((∃ e', e = .parse e' ∧ decode (buf.take n) = .error e') ∨
        e = .unparsedBytesLeft ∧ ∃ a left, decode (buf.take n) = .ok (a, left) ∧ left ≠ []) := by
  rw [codecFrame] at h
  split at h
  · simp at h
  · rename_i hl
    cases hd : decode (buf.take n) with
    | error e' =>
      simp only [hd, Prod.mk.injEq, Poll.error.injEq] at h
      obtain ⟨rfl, rfl, rfl⟩ := h
      exact ⟨by omega, rfl, rfl, .inl ⟨e', rfl, rfl⟩⟩
    | ok v =>
      obtain ⟨a', left⟩ := v
      simp only [hd] at h
      split at h
      · simp at h
      · rename_i hleft
        simp only [Prod.mk.injEq, Poll.error.injEq] at h
        obtain ⟨rfl, rfl, rfl⟩ := h
        exact ⟨by omega, rfl, rfl, .inr ⟨rfl, a', left, rfl, hleft⟩⟩

theorem codecFrame_pending {n : Nat} {buf : Bytes} {st' buf'} (h : codecFrame decode n buf = (.pending, st', buf')) :
    buf.length < n ∧ st' = .frame n ∧ buf' = buf := by
  rw [codecFrame] at h
  split at h
  · simp only [Prod.mk.injEq, true_and] at h
    exact ⟨by omega, h.1.symm, h.2.symm⟩
  · cases hd : decode (buf.take n) with
    | error e' => simp [hd] at h
    | ok v =>
      obtain ⟨a', left⟩ := v
      simp only [hd] at h
      split at h <;> simp at h

theorem codecFrame_append {n : Nat} {buf c : Bytes} (h : n ≤ buf.length) :
    codecFrame decode n (buf ++ c) =
      ((codecFrame decode n buf).1, (codecFrame decode n buf).2.1, (codecFrame decode n buf).2.2 ++ c) := by
  have hd : (buf ++ c).drop n = buf.drop n ++ c := List.drop_append_of_le_length h
  rw [codecFrame, if_neg (by simp; omega), codecFrame, if_neg (by omega), take_append_of_le h, hd]
  split
  · rfl
  · split <;> rfl

/-- More bytes do not change a result that is already there. -/
theorem codecDecode_append {st st' : DecodeState} {buf buf' : Bytes} {p : Poll α CodecError} (c : Bytes)
    (h : codecDecode decode max st buf = (p, st', buf')) (hp : p ≠ .pending) :
    codecDecode decode max st (buf ++ c) = (p, st', buf' ++ c) := by
  have hfr {n : Nat} {b : Bytes} (h : codecFrame decode n b = (p, st', buf')) :
      codecFrame decode n (b ++ c) = (p, st', buf' ++ c) := by
    rw [codecFrame_append, h]
    cases p with
    | pending => exact absurd rfl hp
    | ready a => exact (codecFrame_ready h).1
    | error e => exact (codecFrame_error h).1
  cases st with
  | frame n => exact hfr h
  | frameHeader =>
    simp only [codecDecode] at h ⊢
    by_cases h8 : buf.length < 8
    · rw [if_pos h8] at h
      simp only [Prod.mk.injEq] at h
      exact absurd h.1.symm hp
    · rw [if_neg h8] at h
      rw [if_neg (by simp; omega), take_append_of_le (by omega)]
      split at h
      · rename_i h1
        simp only [Prod.mk.injEq] at h
        obtain ⟨rfl, rfl, rfl⟩ := h
        rw [if_pos h1]
      · rename_i h1
        rw [if_neg h1]
        split at h
        · rename_i h2
          simp only [Prod.mk.injEq] at h
          obtain ⟨rfl, rfl, rfl⟩ := h
          rw [if_pos h2]
        · rename_i h2
          rw [if_neg h2]
          split at h
          · simp only [Prod.mk.injEq] at h
            exact absurd h.1.symm hp
          · rename_i h3
            rw [if_neg (by simp; omega), List.drop_append_of_le_length (by omega)]
            exact hfr h

/-- Waiting loses nothing: going on from the waiting state is like starting over with the longer buffer. -/
theorem codecDecode_pending {st st' : DecodeState} {buf buf' : Bytes} (c : Bytes)
    (h : codecDecode decode max st buf = (.pending, st', buf')) :
    codecDecode decode max st' (buf' ++ c) = codecDecode decode max st (buf ++ c) := by
  cases st with
  | frame n =>
    obtain ⟨_, rfl, rfl⟩ := codecFrame_pending h
    rfl
  | frameHeader =>
    simp only [codecDecode] at h
    split at h
    · simp only [Prod.mk.injEq, true_and] at h
      obtain ⟨rfl, rfl⟩ := h
      rfl
    · rename_i h8
      split at h
      · simp at h
      · rename_i h1
        split at h
        · simp at h
        · rename_i h2
          split at h
          · rename_i h3
            simp only [Prod.mk.injEq, true_and] at h
            obtain ⟨rfl, rfl⟩ := h
            conv => rhs; simp only [codecDecode]
            rw [if_neg (by simp; omega), take_append_of_le (by omega), if_neg h1, if_neg h2,
              List.drop_append_of_le_length (by omega)]
            simp only [codecDecode]
            split
            · rename_i h4
              rw [codecFrame, if_pos (by simp at h4 ⊢; omega)]
            · rfl
          · rename_i h3
            obtain ⟨hl, _⟩ := codecFrame_pending h
            simp at hl
            omega

theorem codecDecode_ok {st st' : DecodeState} {buf buf' : Bytes} {p : Poll α CodecError} (hs : st.ok)
    (h : codecDecode decode max st buf = (p, st', buf')) : st'.ok ∧ ∀ a, p = .ready a → buf'.length < buf.length := by
  have hfr {n : Nat} {b : Bytes} (hn : 0 < n) (h : codecFrame decode n b = (p, st', buf')) :
      st'.ok ∧ ∀ a, p = .ready a → buf'.length < b.length := by
    cases p with
    | pending => obtain ⟨_, rfl, _⟩ := codecFrame_pending h; exact ⟨hn, nofun⟩
    | error e => obtain ⟨_, rfl, _⟩ := codecFrame_error h; exact ⟨hn, nofun⟩
    | ready a =>
      obtain ⟨h1, rfl, rfl, _⟩ := codecFrame_ready h
      exact ⟨trivial, fun _ _ => by simp; omega⟩
  cases st with
  | frame n => exact hfr hs h
  | frameHeader =>
    simp only [codecDecode] at h
    split at h
    · simp only [Prod.mk.injEq] at h
      obtain ⟨rfl, rfl, rfl⟩ := h
      exact ⟨trivial, nofun⟩
    · rename_i h8
      split at h
      · simp only [Prod.mk.injEq] at h
        obtain ⟨rfl, rfl, rfl⟩ := h
        exact ⟨trivial, nofun⟩
      · split at h
        · simp only [Prod.mk.injEq] at h
          obtain ⟨rfl, rfl, rfl⟩ := h
          exact ⟨trivial, nofun⟩
        · rename_i h2
          split at h
          · simp only [Prod.mk.injEq] at h
            obtain ⟨rfl, rfl, rfl⟩ := h
            exact ⟨by simp [DecodeState.ok]; omega, nofun⟩
          · have := hfr (by omega) h
            exact ⟨this.1, fun a ha => by have := this.2 a ha; simp at this; omega⟩

/-- The drain result with enough fuel. -/
theorem codecDrain_fuel : ∀ (n m : Nat) (st : DecodeState) (buf : Bytes), st.ok → buf.length < n → buf.length < m →
    codecDrain decode max n st buf = codecDrain decode max m st buf
  | 0, _, _, _, _, h, _ => by omega
  | _, 0, _, _, _, _, h => by omega
  | n + 1, m + 1, st, buf, hs, hn, hm => by
    simp only [codecDrain]
    cases h : codecDecode decode max st buf with
    | mk p x =>
      obtain ⟨st', buf'⟩ := x
      obtain ⟨hs', hlt⟩ := codecDecode_ok hs h
      cases p with
      | pending => rfl
      | error e => rfl
      | ready a =>
        have := hlt a rfl
        simp only
        rw [codecDrain_fuel n m st' buf' hs' (by omega) (by omega)]

/-- Draining a longer buffer: drain the shorter one, then go on. -/
theorem codecDrain_append : ∀ (n : Nat) (st : DecodeState) (buf c : Bytes), st.ok → buf.length < n →
    codecDrain decode max (n + c.length) st (buf ++ c) =
      match codecDrain decode max n st buf with
      | (as, some e, st', buf') => (as, some e, st', buf' ++ c)
      | (as, none, st', buf') =>
        ((as ++ (codecDrain decode max ((buf' ++ c).length + 1) st' (buf' ++ c)).1),
          (codecDrain decode max ((buf' ++ c).length + 1) st' (buf' ++ c)).2)
  | 0, _, _, _, _, h => by omega
  | n + 1, st, buf, c, hs, hn => by
    rw [show n + 1 + c.length = (n + c.length) + 1 by omega]
    conv => rhs; rw [codecDrain]
    cases h : codecDecode decode max st buf with
    | mk p x =>
      obtain ⟨st', buf'⟩ := x
      obtain ⟨hs', hlt⟩ := codecDecode_ok hs h
      cases p with
      | pending =>
        simp only [List.nil_append]
        have hp := codecDecode_pending c h
        have e1 : codecDrain decode max (n + c.length + 1) st (buf ++ c) =
            codecDrain decode max (n + c.length + 1) st' (buf' ++ c) := by
          rw [codecDrain, codecDrain, hp]
        rw [e1]
        have hl : buf'.length ≤ buf.length := by
          cases st with
          | frame k => obtain ⟨_, rfl, rfl⟩ := codecFrame_pending h; omega
          | frameHeader =>
            simp only [codecDecode] at h
            split at h
            · simp only [Prod.mk.injEq, true_and] at h; rw [h.2]; omega
            · split at h
              · simp at h
              · split at h
                · simp at h
                · split at h
                  · simp only [Prod.mk.injEq, true_and] at h; rw [← h.2]; simp
                  · obtain ⟨_, _, rfl⟩ := codecFrame_pending h; simp
        exact codecDrain_fuel _ _ _ _ hs' (by simp; omega) (by omega)
      | error e =>
        rw [codecDrain, codecDecode_append c h (by nofun)]
      | ready a =>
        have hlt := hlt a rfl
        rw [codecDrain, codecDecode_append c h (by nofun)]
        simp only
        rw [codecDrain_append n st' buf' c hs' (by omega)]
        rcases codecDrain decode max n st' buf' with ⟨as, e, st2, buf2⟩
        cases e <;> simp

theorem codecDrain_pending : ∀ (n : Nat) (st : DecodeState) (buf : Bytes) {as st' buf'}, st.ok → buf.length < n →
    codecDrain decode max n st buf = (as, none, st', buf') → st'.ok ∧
      ∀ n, buf'.length < n → codecDrain decode max n st' buf' = ([], none, st', buf')
  | 0, _, _, _, _, _, _, h, _ => by omega
  | n + 1, st, buf, as, st2, buf2, hs, hn, h => by
    rw [codecDrain] at h
    cases hd : codecDecode decode max st buf with
    | mk p x =>
      obtain ⟨st', buf'⟩ := x
      obtain ⟨hs', hlt⟩ := codecDecode_ok hs hd
      rw [hd] at h
      cases p with
      | pending =>
        simp only [Prod.mk.injEq, true_and] at h
        obtain ⟨rfl, rfl, rfl⟩ := h
        refine ⟨hs', fun m hm => ?_⟩
        have hp := codecDecode_pending [] hd
        simp only [List.append_nil] at hp
        obtain ⟨k, rfl⟩ : ∃ k, m = k + 1 := ⟨m - 1, by omega⟩
        rw [codecDrain, hp, hd]
      | error e => simp at h
      | ready a =>
        have := hlt a rfl
        simp only at h
        rcases hr : codecDrain decode max n st' buf' with ⟨as', e', st3, buf3⟩
        rw [hr] at h
        simp only [Prod.mk.injEq] at h
        obtain ⟨_, rfl, rfl, rfl⟩ := h
        exact codecDrain_pending n st' buf' hs' (by omega) hr

/-- Reading chunk by chunk is draining the whole. -/
theorem codecRead_eq : ∀ (cs : List Bytes) (st : DecodeState) (buf : Bytes), st.ok →
    (∀ n, buf.length < n → codecDrain decode max n st buf = ([], none, st, buf)) →
    codecRead decode max cs st buf =
      ((codecDrain decode max ((buf ++ cs.flatten).length + 1) st (buf ++ cs.flatten)).1,
        (codecDrain decode max ((buf ++ cs.flatten).length + 1) st (buf ++ cs.flatten)).2.1)
  | [], st, buf, _, hp => by
    rw [codecRead]
    simp only [List.flatten_nil, List.append_nil]
    rw [hp _ (by omega)]
  | c :: cs, st, buf, hs, _ => by
    rw [codecRead]
    have ha := codecDrain_append (decode := decode) (max := max) ((buf ++ c).length + 1) st (buf ++ c) cs.flatten hs (by omega)
    rw [List.flatten_cons, ← List.append_assoc,
      show (buf ++ c ++ cs.flatten).length + 1 = (buf ++ c).length + 1 + cs.flatten.length by simp; omega, ha]
    rcases hr : codecDrain decode max ((buf ++ c).length + 1) st (buf ++ c) with ⟨as, e, st', buf'⟩
    cases e with
    | some e => rfl
    | none =>
      obtain ⟨hs', hp'⟩ := codecDrain_pending _ _ _ hs (by omega) hr
      simp only
      rw [codecRead_eq cs st' buf' hs' hp']

/-- What draining from the start of a frame means in terms of the bytes. -/
theorem codecDrain_spec : ∀ (n : Nat) (buf : Bytes) {as e st' buf'}, buf.length < n →
    codecDrain decode max n .frameHeader buf = (as, e, st', buf') →
    ∃ (raws : List Bytes) (rest : Bytes), buf = raws.flatten ++ rest ∧
      raws.map (fun raw => decode (raw.drop 4)) = as.map (fun a => Except.ok (a, [])) ∧
      (∀ raw ∈ raws, RawFrame max raw) ∧
      match e with
      | none => Awaiting max rest
      | some e => Refused decode max rest e
  | 0, _, _, _, _, _, h, _ => by omega
  | n + 1, buf, as, e, st2, buf2, hn, h => by
    rw [codecDrain] at h
    simp only [codecDecode] at h
    by_cases h8 : buf.length < 8
    · rw [if_pos h8] at h
      simp only [Prod.mk.injEq] at h
      obtain ⟨rfl, rfl, rfl, rfl⟩ := h
      exact ⟨[], buf, rfl, rfl, nofun, .inl h8⟩
    · rw [if_neg h8] at h
      by_cases h1 : max ≠ 0 ∧ beNat (buf.take 4) > max
      · rw [if_pos h1] at h
        simp only [Prod.mk.injEq] at h
        obtain ⟨rfl, rfl, rfl, rfl⟩ := h
        exact ⟨[], buf, rfl, rfl, nofun, by omega, h1.1, h1.2⟩
      · rw [if_neg h1] at h
        have hadm : admits max (beNat (buf.take 4)) := by
          by_cases h0 : max = 0
          · exact .inl h0
          · exact .inr (by omega)
        by_cases h2 : beNat (buf.take 4) ≤ 4
        · rw [if_pos h2] at h
          simp only [Prod.mk.injEq] at h
          obtain ⟨rfl, rfl, rfl, rfl⟩ := h
          exact ⟨[], buf, rfl, rfl, nofun, by omega, h2⟩
        · rw [if_neg h2] at h
          by_cases h3 : buf.length < beNat (buf.take 4)
          · rw [if_pos h3] at h
            simp only [Prod.mk.injEq] at h
            obtain ⟨rfl, rfl, rfl, rfl⟩ := h
            exact ⟨[], buf, rfl, rfl, nofun, .inr ⟨h3, hadm⟩⟩
          · rw [if_neg h3] at h
            obtain ⟨sz, hsz⟩ : ∃ sz, sz = beNat (buf.take 4) := ⟨_, rfl⟩
            rw [← hsz] at h hadm h2 h3
            have hraw : RawFrame max (buf.take sz) := by
              have hl : (buf.take sz).length = sz := by simp; omega
              refine ⟨by omega, ?_, by rw [hl]; exact hadm⟩
              rw [hl, List.take_take, Nat.min_eq_left (by omega), ← hsz]
            have hdrop : (buf.take sz).drop 4 = (buf.drop 4).take (sz - 4) := by rw [List.drop_take]
            have hdd : (buf.drop 4).drop (sz - 4) = buf.drop sz := by rw [List.drop_drop]; congr 1; omega
            rcases hf : codecFrame decode (sz - 4) (buf.drop 4) with ⟨p, st', buf'⟩
            rw [hf] at h
            cases p with
            | pending =>
              obtain ⟨hl, _⟩ := codecFrame_pending hf
              simp at hl; omega
            | error e' =>
              obtain ⟨_, _, _, he⟩ := codecFrame_error hf
              simp only [Prod.mk.injEq] at h
              obtain ⟨rfl, rfl, rfl, rfl⟩ := h
              refine ⟨[], buf, rfl, rfl, nofun, ?_⟩
              have hb : buf = buf.take sz ++ buf.drop sz := (List.take_append_drop _ _).symm
              rcases he with ⟨e2, rfl, he⟩ | ⟨rfl, a, left, ha, hleft⟩
              · exact ⟨_, _, hb, hraw, by omega, by rw [hdrop]; exact he⟩
              · exact ⟨_, _, a, left, hb, hraw, by omega, by rw [hdrop]; exact ha, hleft⟩
            | ready a =>
              obtain ⟨_, rfl, rfl, ha⟩ := codecFrame_ready hf
              rw [hdd] at h
              rcases hr : codecDrain decode max n .frameHeader (buf.drop sz) with ⟨as', e', st3, buf3⟩
              simp only [hr, Prod.mk.injEq] at h
              obtain ⟨rfl, rfl, rfl, rfl⟩ := h
              obtain ⟨raws, rest, hb, hm, hrs, he⟩ := codecDrain_spec n (buf.drop sz) (by simp; omega) hr
              refine ⟨buf.take sz :: raws, rest, ?_, ?_, ?_, he⟩
              · rw [List.flatten_cons, List.append_assoc, ← hb, List.take_append_drop]
              · rw [List.map_cons, List.map_cons, hm, hdrop, ha]
              · intro raw hr
                rcases List.mem_cons.1 hr with rfl | hr
                · exact hraw
                · exact hrs raw hr

/-- Reading written frames. -/
theorem codecDecode_enc {raw rest : Bytes} {a : α} (h8 : 8 ≤ raw.length) (hsz : beNat (raw.take 4) = raw.length)
    (hadm : admits max raw.length) (hd : decode (raw.drop 4) = .ok (a, [])) :
    codecDecode decode max .frameHeader (raw ++ rest) = (.ready a, .frameHeader, rest) := by
  simp only [codecDecode]
  rw [if_neg (by simp; omega), take_append_of_le (by omega), hsz, if_neg, if_neg (by omega), if_neg (by simp),
    List.drop_append_of_le_length (by omega), codecFrame, if_neg (by simp),
    List.take_left' (by simp), List.drop_left' (by simp), hd]
  · simp
  · rcases hadm with h | h <;> omega

theorem codecDrain_enc {encode : α → Bytes} {view : α → α}
    {ok : α → Prop} (hrt : ∀ f, ok f → 8 ≤ (encode f).length ∧ beNat ((encode f).take 4) = (encode f).length ∧
      admits max (encode f).length ∧ decode ((encode f).drop 4) = .ok (view f, [])) :
    ∀ (fs : List α) (n : Nat) (rest : Bytes), (∀ f ∈ fs, ok f) → rest.length < 8 → (fs.flatMap encode ++ rest).length < n →
    codecDrain decode max n .frameHeader (fs.flatMap encode ++ rest) = (fs.map view, none, .frameHeader, rest)
  | [], n, rest, _, hr, hn => by
    obtain ⟨k, rfl⟩ : ∃ k, n = k + 1 := ⟨n - 1, by omega⟩
    simp only [List.flatMap_nil, List.nil_append, codecDrain, codecDecode, if_pos hr, List.map_nil]
  | f :: fs, n, rest, hok, hr, hn => by
    obtain ⟨k, rfl⟩ : ∃ k, n = k + 1 := ⟨n - 1, by omega⟩
    obtain ⟨h1, h2, h3, h4⟩ := hrt f (hok f (by simp))
    rw [List.flatMap_cons, List.append_assoc] at hn ⊢
    rw [codecDrain, codecDecode_enc h1 h2 h3 h4]
    simp only
    rw [codecDrain_enc hrt fs k rest (fun f hf => hok f (by simp [hf])) hr (by simp at hn ⊢; omega)]
    rfl
end
end Amqp
