import Verif.HandshakeNew
import Verif.HandshakeCurve25519
import Verif.EchoProps
/-!
# C85: what is in `*state` when the creation of a HandshakeState fails
-/

namespace Noise

/-- **C85**: when `noise_handshakestate_new_by_name` returns, `*state` points to an object exactly if the result is success.
It is null when the name is unknown or there is no memory for the object; but whenever the object was allocated and the
creation fails after that, `*state` is left with a pointer to freed memory. The result is that of C16 unless memory is
missing. -/
theorem C85_by_name {HB : HashBackend} (CB : CipherBackend) (D G : DHBackend) (mem : Bool) (ctx0 : HB.Ctx) (name : Bytes)
    (role : Role) (e : Err) (p : Ptr) (h : HS.newByNamePtr CB D G mem ctx0 name role = .ok (e, p)) :
    (p = .dangling ↔ mem = true ∧ (∃ sym, SymState.newByName CB HB ctx0 name = .ok sym ∧
      (patternLookup sym.id.patternId).isSome = true) ∧
      (HS.newByName CB ctx0 name role : Out (Except Err (HS HB D G))) = .ok (.error e)) ∧
    (p = .live ↔ mem = true ∧ ∃ s, (HS.newByName CB ctx0 name role : Out (Except Err (HS HB D G))) = .ok (.ok s)) ∧
    (p = .live → e = .none) := by
  unfold HS.newByNamePtr at h
  unfold HS.newByName
  cases hs : SymState.newByName CB HB ctx0 name with
  | error x =>
    rw [hs] at h
    cases h
    exact ⟨⟨nofun, fun ⟨_, ⟨_, h, _⟩, _⟩ => by cases h⟩, ⟨nofun, fun ⟨_, _, h⟩ => by cases h⟩, nofun⟩
  | ok sym =>
    rw [hs] at h
    dsimp only at h ⊢
    unfold HS.newPtr at h
    cases hl : patternLookup sym.id.patternId with
    | none =>
      rw [hl] at h
      cases h
      have hn : (HS.new sym role : Out (Except Err (HS HB D G))) = .ok (.error .unknownId) := by unfold HS.new; rw [hl]
      refine ⟨⟨nofun, fun ⟨_, ⟨_, h, h'⟩, _⟩ => ?_⟩, ⟨nofun, fun ⟨_, _, h⟩ => ?_⟩, nofun⟩
      · cases h; rw [hl] at h'; cases h'
      · rw [hn] at h; cases h
    | some pat =>
      rw [hl] at h
      cases mem with
      | false => cases h; exact ⟨⟨nofun, fun h => by cases h.1⟩, ⟨nofun, fun h => by cases h.1⟩, nofun⟩
      | true =>
        dsimp only at h
        rw [if_neg (by simp)] at h
        cases hn : (HS.new sym role : Out (Except Err (HS HB D G))) with
        | ub => rw [hn] at h; cases h
        | ok x =>
          rw [hn, Out.bind_ok] at h
          cases x with
          | error x =>
            cases h
            exact ⟨⟨fun _ => ⟨rfl, ⟨sym, rfl, by rw [hl]; rfl⟩, rfl⟩, fun _ => rfl⟩, ⟨nofun, fun ⟨_, _, h⟩ => by cases h⟩, nofun⟩
          | ok s =>
            cases h
            exact ⟨⟨nofun, fun ⟨_, _, h⟩ => by cases h⟩, ⟨fun _ => ⟨rfl, s, rfl⟩, fun _ => rfl⟩, fun _ => rfl⟩

/-- **C85**: the return code is that of the creation as in C16 if there is memory. Without memory for the object, it is
`NOISE_ERROR_NO_MEMORY` unless the name or its pattern is refused before. Freeing a null pointer is answered with
`NOISE_ERROR_INVALID_PARAM`. -/
theorem C85_codes {HB : HashBackend} (CB : CipherBackend) (D G : DHBackend) (mem : Bool) (ctx0 : HB.Ctx) (name : Bytes)
    (role : Role) (e : Err) (p : Ptr) (h : HS.newByNamePtr CB D G mem ctx0 name role = .ok (e, p)) :
    (p = .live → e = .none ∧ HS.freePtr p = .ok .none) ∧
    (p = .dangling → (HS.newByName CB ctx0 name role : Out (Except Err (HS HB D G))) = .ok (.error e) ∧ HS.freePtr p = .ub) ∧
    (p = .null → ((HS.newByName CB ctx0 name role : Out (Except Err (HS HB D G))) = .ok (.error e) ∨ mem = false ∧ e = .noMemory) ∧
      HS.freePtr p = .ok .invalidParam) := by
  obtain ⟨hd, _, hv⟩ := C85_by_name CB D G mem ctx0 name role e p h
  refine ⟨fun hp => ⟨hv hp, hp ▸ rfl⟩, fun hp => ⟨(hd.1 hp).2.2, hp ▸ rfl⟩, fun hp => ⟨?_, hp ▸ rfl⟩⟩
  unfold HS.newByNamePtr at h
  unfold HS.newByName
  cases hs : SymState.newByName CB HB ctx0 name with
  | error x => rw [hs] at h; cases h; exact .inl rfl
  | ok sym =>
    rw [hs] at h
    dsimp only at h ⊢
    unfold HS.newPtr at h
    cases hl : patternLookup sym.id.patternId with
    | none =>
      have hn : (HS.new sym role : Out (Except Err (HS HB D G))) = .ok (.error .unknownId) := by unfold HS.new; rw [hl]
      rw [hl] at h; cases h; exact .inl hn
    | some pat =>
      rw [hl] at h
      cases mem with
      | false => cases h; exact .inr ⟨rfl, rfl⟩
      | true =>
        dsimp only at h
        rw [if_neg (by simp)] at h
        cases hn : (HS.new sym role : Out (Except Err (HS HB D G))) with
        | ub => rw [hn] at h; cases h
        | ok x =>
          rw [hn, Out.bind_ok] at h
          subst hp
          cases x <;> cases h

/-- Without memory. -/
example : HS.newByNamePtr (HB := Sha256.backend) ChaChaPoly.backend vecSetup.D vecSetup.G false vecCtx
    (ascii "Noise_XX_25519_ChaChaPoly_SHA256") .initiator = .ok (.noMemory, .null) := rfl

/-- **C85**: it happens, with a name that consists of known algorithms; a caller who frees what is there then frees it twice. -/
theorem C85_fails_dangling : ∃ name p,
    HS.newByNamePtr (HB := Sha256.backend) ChaChaPoly.backend vecSetup.D vecSetup.G true vecCtx name .initiator =
      .ok (.notApplicable, p) ∧ p = .dangling ∧ HS.freePtr p = .ub :=
  ⟨ascii "Noise_NN_25519+25519_ChaChaPoly_SHA256", _, rfl, rfl, rfl⟩

/-- Success and an early failure. -/
example : HS.newByNamePtr (HB := Sha256.backend) ChaChaPoly.backend vecSetup.D vecSetup.G true vecCtx
      (ascii "Noise_XX_25519_ChaChaPoly_SHA256") .initiator = .ok (.none, .live) ∧
    HS.newByNamePtr (HB := Sha256.backend) ChaChaPoly.backend vecSetup.D vecSetup.G true vecCtx
      (ascii "Noise_XX") .initiator = .ok (.unknownName, .null) := ⟨rfl, rfl⟩

set_option maxRecDepth 100000 in
/-- **C85**: a client of the echo server reaches this with the first five bytes that it sends: the server frees the object twice. -/
theorem C85_server_fails : ∃ id : Echo.Id, (Echo.toNoise id).1 = true ∧
    Echo.serverCreate (HB := Sha256.backend) ChaChaPoly.backend vecSetup.D vecSetup.G true vecCtx (List.replicate 256 0) id = .ub :=
  ⟨⟨0, 0, 0, 0x10, 0⟩, rfl, rfl⟩

set_option maxRecDepth 100000 in
/-- Other identifiers are answered as intended. -/
example : Echo.serverCreate (HB := Sha256.backend) ChaChaPoly.backend vecSetup.D vecSetup.G true vecCtx (List.replicate 256 0)
      ⟨0, 0, 0, 0, 0⟩ = .ok true ∧
    Echo.serverCreate (HB := Sha256.backend) ChaChaPoly.backend vecSetup.D vecSetup.G true vecCtx (List.replicate 256 0)
      ⟨0, 0, 9, 0, 0⟩ = .ok false := ⟨rfl, rfl⟩

/-! ## Every identifier that mixes the two -/

theorem newObj_keeps (D : DHBackend) (c : Bool) (id : Int) {err : Err} (h : err ≠ .none) : (HS.newObj D c id err).1 ≠ .none := by
  unfold HS.newObj
  rw [if_neg (fun h' => h h'.2)]
  exact h

theorem newHybrid_keeps (G : DHBackend) (c : Bool) (id : Int) {err : Err} (h : err ≠ .none) :
    (HS.newHybrid G c id err).1 ≠ .none := by
  unfold HS.newHybrid
  rw [if_neg (fun h' => h h'.2)]
  split
  · simp
  · exact h

theorem newHybrid_mixed (G : DHBackend) (c : Bool) (id : Int) (err : Err) (h : c ≠ decide (id ≠ 0)) :
    (HS.newHybrid G c id err).1 ≠ .none := by
  by_cases he : err = .none
  · subst he
    unfold HS.newHybrid
    by_cases hi : id = 0 <;> cases c <;> simp_all
  · exact newHybrid_keeps G c id he

/-- Whether a responder with this pattern has a hybrid key of its own. -/
private def respHybrid (id : Int) : Option Bool :=
  match patternLookup id with
  | none => none
  | some p =>
    match patternFlags p with
    | .ok f => some (hasFlag (reverseFlags f) flagLocalHybrid)
    | .ub => none

theorem HS.new_mixed {HB : HashBackend} {D G : DHBackend} (sym : SymState HB) (b : Bool)
    (hp : respHybrid sym.id.patternId = some b) (h : b ≠ decide (sym.id.hybridId ≠ 0)) :
    ∃ e, e ≠ .none ∧ (HS.new sym .responder : Out (Except Err (HS HB D G))) = .ok (.error e) := by
  unfold respHybrid at hp
  unfold HS.new
  cases hl : patternLookup sym.id.patternId with
  | none => rw [hl] at hp; cases hp
  | some p =>
    rw [hl] at hp
    dsimp only at hp ⊢
    cases hf : patternFlags p with
    | ub => rw [hf] at hp; cases hp
    | ok f =>
      rw [hf] at hp
      have hb := Option.some.inj hp
      rw [Out.bind_ok]
      rw [if_pos rfl]
      generalize h1 : HS.newObj D (hasFlag (reverseFlags f) flagLocalStatic) sym.id.dhId .none = r1
      generalize h2 : HS.newObj D (hasFlag (reverseFlags f) flagLocalEphemeral) sym.id.dhId r1.1 = r2
      generalize h3 : HS.newHybrid G (hasFlag (reverseFlags f) flagLocalHybrid) sym.id.hybridId r2.1 = r3
      generalize h4 : HS.newObj D (hasFlag (reverseFlags f) flagRemoteStatic) sym.id.dhId r3.1 = r4
      generalize h5 : HS.newObj D (hasFlag (reverseFlags f) flagRemoteEphemeral) sym.id.dhId r4.1 = r5
      generalize h6 : HS.newHybrid G (hasFlag (reverseFlags f) flagRemoteHybrid) sym.id.hybridId r5.1 = r6
      have e3 : r3.1 ≠ .none := h3 ▸ newHybrid_mixed G _ _ _ (hb ▸ h)
      have e4 : r4.1 ≠ .none := h4 ▸ newObj_keeps D _ _ e3
      have e5 : r5.1 ≠ .none := h5 ▸ newObj_keeps D _ _ e4
      have e6 : r6.1 ≠ .none := h6 ▸ newHybrid_keeps G _ _ e5
      have e7 : HS.ephemeralOnlyCheck D r1.2.isSome r4.2.isSome r2.2.isSome r5.2.isSome r6.1 = r6.1 := by
        unfold HS.ephemeralOnlyCheck
        rw [if_pos e6]
      rw [e7, if_pos e6]
      exact ⟨_, e6, rfl⟩

theorem SymState.newById_id {HB : HashBackend} {CB : CipherBackend} {ctx0 : HB.Ctx} {stack : Bytes} {id : ProtocolId} {sym : SymState HB}
    (h : SymState.newById CB HB ctx0 stack id = .ok (.ok sym)) : sym.id = id := by
  unfold SymState.newById at h
  cases hp : protocolIdToName stack id with
  | ub => rw [hp] at h; cases h
  | ok x =>
    rw [hp, Out.bind_ok] at h
    dsimp only at h
    split at h
    · cases h
    · have h := Out.ok.inj h
      unfold SymState.new at h
      split at h
      · cases h
      split at h
      · cases h
      split at h
      · cases h; rfl
      · cases h; rfl

theorem SymState.newById_err {HB : HashBackend} {CB : CipherBackend} {ctx0 : HB.Ctx} {stack : Bytes} {id : ProtocolId} {e : Err}
    (h : SymState.newById CB HB ctx0 stack id = .ok (.error e)) : e ≠ .none := by
  unfold SymState.newById at h
  cases hp : protocolIdToName stack id with
  | ub => rw [hp] at h; cases h
  | ok x =>
    rw [hp, Out.bind_ok] at h
    dsimp only at h
    split at h
    · rename_i he; cases h; exact he
    · have h := Out.ok.inj h
      unfold SymState.new at h
      split at h
      · cases h; simp
      split at h
      · cases h; simp
      split at h <;> cases h

theorem HS.new_err {HB : HashBackend} {D G : DHBackend} {sym : SymState HB} {role : Role} {e : Err}
    (h : (HS.new sym role : Out (Except Err (HS HB D G))) = .ok (.error e)) : e ≠ .none := by
  unfold HS.new at h
  cases hl : patternLookup sym.id.patternId with
  | none => rw [hl] at h; cases h; simp
  | some p =>
    rw [hl] at h
    dsimp only at h
    cases hf : patternFlags p with
    | ub => rw [hf] at h; cases h
    | ok f =>
      rw [hf, Out.bind_ok] at h
      generalize (if role = .responder then reverseFlags f else f) = F at h
      split at h
      · rename_i he; cases h; exact he
      · cases h

/-- **C85**: the server goes on exactly if it accepts the identifier and creates the object of a responder for it. -/
theorem C85_server_goes_on {HB : HashBackend} (CB : CipherBackend) (D G : DHBackend) (mem : Bool) (ctx0 : HB.Ctx) (stack : Bytes)
    (id : Echo.Id) : Echo.serverCreate (HB := HB) CB D G mem ctx0 stack id = .ok true ↔
      (Echo.toNoise id).1 = true ∧ mem = true ∧
        ∃ s : HS HB D G, HS.newById CB ctx0 stack (Echo.toNoise id).2 .responder = .ok (.ok s) := by
  unfold Echo.serverCreate
  cases ha : (Echo.toNoise id).1 with
  | false => exact ⟨nofun, nofun⟩
  | true =>
    rw [if_neg (by simp)]
    unfold HS.newByIdPtr HS.newById
    cases hs : SymState.newById CB HB ctx0 stack (Echo.toNoise id).2 with
    | ub => exact ⟨nofun, fun ⟨_, _, _, h⟩ => by cases h⟩
    | ok r =>
      rw [Out.bind_ok, Out.bind_ok]
      cases r with
      | error e =>
        refine ⟨fun h => ?_, fun ⟨_, _, _, h⟩ => by cases h⟩
        have he := SymState.newById_err hs
        change (if e ≠ .none then _ else _) = _ at h
        rw [if_pos he] at h
        cases h
      | ok sym =>
        dsimp only
        unfold HS.newPtr
        cases hl : patternLookup sym.id.patternId with
        | none =>
          refine ⟨nofun, fun ⟨_, _, _, h⟩ => ?_⟩
          unfold HS.new at h; rw [hl] at h; cases h
        | some p =>
          cases mem with
          | false => exact ⟨nofun, nofun⟩
          | true =>
            dsimp only
            rw [if_neg (by simp)]
            cases hn : (HS.new sym .responder : Out (Except Err (HS HB D G))) with
            | ub => exact ⟨nofun, fun ⟨_, _, _, h⟩ => by cases h⟩
            | ok x =>
              rw [Out.bind_ok]
              cases x with
              | ok s => exact ⟨fun _ => ⟨rfl, rfl, s, rfl⟩, fun _ => rfl⟩
              | error e =>
                refine ⟨fun h => ?_, fun ⟨_, _, _, h⟩ => by cases h⟩
                have he := HS.new_err hn
                change (if e ≠ .none then _ else _) = _ at h
                rw [if_pos he] at h
                cases h

set_option maxRecDepth 100000 in
/-- NN is created. -/
example : (Echo.toNoise ⟨0, 0, 0, 0, 0⟩).1 = true ∧ ∃ s : vecSetup.H, HS.newById ChaChaPoly.backend vecCtx (List.replicate 256 0)
    (Echo.toNoise ⟨0, 0, 0, 0, 0⟩).2 .responder = .ok (.ok s) := ⟨rfl, _, rfl⟩

/-- **C85**: an identifier is enough for that, whatever the algorithms, if it is accepted and asks for a hybrid algorithm with
a pattern that has none or the other way round; all that has to go well before is the creation of the SymmetricState. -/
theorem C85_server_mixed {HB : HashBackend} (CB : CipherBackend) (D G : DHBackend) (ctx0 : HB.Ctx) (stack : Bytes) (id : Echo.Id)
    (ha : (Echo.toNoise id).1 = true) (hm : (id.dh &&& 0xf0 = 0 ∧ id.pattern &&& 0x80 ≠ 0) ∨ (id.dh &&& 0xf0 ≠ 0 ∧ id.pattern &&& 0x80 = 0))
    (hs : ∃ sym, SymState.newById CB HB ctx0 stack (Echo.toNoise id).2 = .ok (.ok sym)) :
    Echo.serverCreate (HB := HB) CB D G true ctx0 stack id = .ub := by
  obtain ⟨sym, hs⟩ := hs
  obtain ⟨_, m2, _, _, m5, _, _⟩ := Echo.toNoise_ok (Prod.ext ha rfl : Echo.toNoise id = (true, (Echo.toNoise id).2))
  have t2 : ∀ p ∈ Echo.ofPattern, respHybrid p.2 = some (decide (p.1 &&& 0x80 ≠ 0)) := by decide +kernel
  have t5 : ∀ p ∈ Echo.ofHybrid, decide (p.2 ≠ 0) = decide (p.1 ≠ 0) := by decide +kernel
  have hid : sym.id = (Echo.toNoise id).2 := SymState.newById_id hs
  have t2 := t2 _ m2
  have t5 := t5 _ m5
  rw [← hid] at t2 t5
  obtain ⟨e, he, hn⟩ := HS.new_mixed (D := D) (G := G) sym _ t2 (by
    dsimp only at t5 ⊢
    rw [t5]
    rcases hm with ⟨a, b⟩ | ⟨a, b⟩ <;> simp [a, b])
  unfold Echo.serverCreate HS.newByIdPtr HS.newPtr
  rw [if_neg (by simp [ha]), hs, Out.bind_ok]
  dsimp only
  cases hl : patternLookup sym.id.patternId with
  | none => unfold respHybrid at t2; rw [hl] at t2; cases t2
  | some p =>
    dsimp only
    rw [if_neg (by simp), hn, Out.bind_ok]
    show (if e ≠ .none then _ else _) = _
    rw [if_pos he]
    rfl

set_option maxRecDepth 100000 in
/-- Not only NN: IKhfs without a hybrid algorithm. -/
example : Echo.serverCreate (HB := Sha256.backend) ChaChaPoly.backend vecSetup.D vecSetup.G true vecCtx (List.replicate 256 0)
    ⟨0, 0x0a ||| 0x80, 0, 0, 0⟩ = .ub :=
  C85_server_mixed _ _ _ _ _ _ rfl (.inl ⟨rfl, by decide⟩) ⟨_, rfl⟩

end Noise
