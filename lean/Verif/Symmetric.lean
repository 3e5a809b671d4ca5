import Verif.Cipher
import Verif.Hash
import Verif.Names
/-!
# Model of `src/protocol/symmetricstate.c`
-/

namespace Noise

/-- `struct NoiseSymmetricState_s`, `src/protocol/internal.h:500-525`. `cipher = none` is the
NULL pointer after a split. Of the arrays `ck` and `h` (`NOISE_MAX_HASHLEN` bytes) only the
first `hash_len` bytes are ever used; the model keeps exactly these. -/
structure SymState (HB : HashBackend) where
  id : ProtocolId
  cipher : Option CipherState
  ctx : HB.Ctx
  ck : Bytes
  h : Bytes

namespace SymState
variable (CB : CipherBackend) (HB : HashBackend)

/-- `noise_symmetricstate_new`, `src/protocol/symmetricstate.c:58-113`. `CB` and `HB` are the
back ends selected by `id->cipher_id` and `id->hash_id`, `ctx0` the fresh hash context;
allocation failures are not modelled. -/
def new (ctx0 : HB.Ctx) (name : Bytes) (id : ProtocolId) : Except Err (SymState HB) :=
  if HB.hashLen > HashBackend.maxHashLen then .error .notApplicable
  else if CB.keyLen > HB.hashLen then .error .notApplicable
  else if name.length ≤ HB.hashLen then
    let h := name ++ List.replicate (HB.hashLen - name.length) 0
    .ok { id := id, cipher := some CipherState.new, ctx := ctx0, ck := h, h := h }
  else
    let (ctx, h) := HB.hashOne ctx0 name
    .ok { id := id, cipher := some CipherState.new, ctx := ctx, ck := h, h := h }

/-- `noise_symmetricstate_new_by_id`, `src/protocol/symmetricstate.c:134-155`. `stack` is the
previous contents of the 128-byte name buffer; `strlen` at line 99 stops at the terminator. -/
def newById (ctx0 : HB.Ctx) (stack : Bytes) (id : ProtocolId) : Out (Except Err (SymState HB)) := do
  let (err, mem) ← protocolIdToName stack id
  if err ≠ .none then pure (.error err)
  else pure (new CB HB ctx0 (mem.takeWhile (· ≠ 0)) id)

/-- `noise_symmetricstate_new_by_name`, `src/protocol/symmetricstate.c:175-197`; `name` is the
string without its terminator. -/
def newByName (ctx0 : HB.Ctx) (name : Bytes) : Except Err (SymState HB) :=
  let r := protocolNameToId name
  if r.1 ≠ .none then .error r.1
  else new CB HB ctx0 name r.2

variable {HB}

/-- `noise_symmetricstate_mix_key`, `src/protocol/symmetricstate.c:262-288`. If HKDF refused
its lengths, `temp_k` would be used uninitialised (`ub`). -/
def mixKey (s : SymState HB) (input : Bytes) : Out (Err × SymState HB) :=
  match s.cipher with
  | none => .ok (.invalidState, s)
  | some c => do
    let (err, ctx, ck, tempK) ← HB.hkdf s.ctx s.ck input HB.hashLen CB.keyLen
    if err ≠ .none then .ub
    else pure (.none, { s with ctx := ctx, ck := ck, cipher := some (c.initKey CB tempK).2 })

/-- `noise_symmetricstate_mix_hash`, `src/protocol/symmetricstate.c:303-321`. -/
def mixHash (s : SymState HB) (input : Bytes) : Err × SymState HB :=
  match s.cipher with
  | none => (.invalidState, s)
  | some _ =>
    let r := HB.hashTwo s.ctx s.h input
    (.none, { s with ctx := r.1, h := r.2 })

/-- `noise_symmetricstate_encrypt_and_hash`, `src/protocol/symmetricstate.c:352-376`. -/
def encryptAndHash (s : SymState HB) (b : Buf) : Out (Err × SymState HB × Buf) :=
  match s.cipher with
  | none => .ok (.invalidState, s, b)
  | some c => do
    let r ← c.encryptWithAd CB s.h b
    let s' := { s with cipher := some r.st }
    if r.err ≠ .none then pure (r.err, s', r.buf)
    else do
      let ct ← load r.buf.data 0 r.buf.size
      pure (.none, (s'.mixHash ct).2, r.buf)

/-- `noise_symmetricstate_decrypt_and_hash`, `src/protocol/symmetricstate.c:402-445`. -/
def decryptAndHash (s : SymState HB) (b : Buf) : Out (Err × SymState HB × Buf) :=
  match s.cipher with
  | none => .ok (.invalidState, s, b)
  | some c =>
    if b.size > maxPayload then .ok (.invalidLength, s, b)
    else if c.hasKey = true ∧ b.size < CB.macLen then .ok (.invalidLength, s, b)
    else do
      let ct ← load b.data 0 b.size
      let (ctx, temp) := HB.hashTwo s.ctx s.h ct
      let r ← c.decryptWithAd CB s.h b
      let s' := { s with ctx := ctx, cipher := some r.st }
      if r.err ≠ .none then pure (r.err, s', r.buf)
      else pure (.none, { s' with h := temp }, r.buf)

/-- `noise_symmetricstate_get_mac_length`, `src/protocol/symmetricstate.c:464-478`. -/
def getMacLength (s : SymState HB) : Nat :=
  match s.cipher with
  | none => 0
  | some c => if c.hasKey then CB.macLen else 0

/-- `noise_symmetricstate_split`, `src/protocol/symmetricstate.c:514-573`. `want1` / `want2` say
whether the `c1` / `c2` pointers are non-NULL and `alloc` whether creating the second cipher
object succeeds. Returns the code, the state, `*c1` and `*c2`. -/
def split (s : SymState HB) (want1 want2 alloc : Bool) :
    Out (Err × SymState HB × Option CipherState × Option CipherState) :=
  if !want1 && !want2 then .ok (.invalidParam, s, none, none)
  else match s.cipher with
  | none => .ok (.invalidState, s, none, none)
  | some c => do
    let (err, ctx, tempK1, tempK2) ← HB.hkdf s.ctx s.ck [] CB.keyLen CB.keyLen
    if err ≠ .none then .ub
    else if !want1 && want2 then
      pure (.none, { s with ctx := ctx, cipher := none }, none, some (c.initKey CB tempK2).2)
    else if want2 then
      if !alloc then pure (.noMemory, { s with ctx := ctx }, none, none)
      else pure (.none, { s with ctx := ctx, cipher := none }, some (c.initKey CB tempK1).2,
        some (CipherState.new.initKey CB tempK2).2)
    else pure (.none, { s with ctx := ctx, cipher := none }, some (c.initKey CB tempK1).2, none)

end SymState

/-- A call on a SymmetricState (`src/protocol/symmetricstate.c:237-573`). -/
inductive SOp
  | mixKey (input : Bytes)
  | mixHash (input : Bytes)
  | encrypt (b : Buf)
  | decrypt (b : Buf)
  | split (want1 want2 alloc : Bool)

/-- One call: return code and new state (`src/protocol/symmetricstate.c:237-573`). -/
def SOp.step (CB : CipherBackend) {HB : HashBackend} (s : SymState HB) : SOp → Out (Err × SymState HB)
  | .mixKey i => s.mixKey CB i
  | .mixHash i => .ok (s.mixHash i)
  | .encrypt b => do let r ← s.encryptAndHash CB b; pure (r.1, r.2.1)
  | .decrypt b => do let r ← s.decryptAndHash CB b; pure (r.1, r.2.1)
  | .split a b c => do let r ← s.split CB a b c; pure (r.1, r.2.1)

/-- A history of calls: the return codes (with the call) and the final state
(`src/protocol/symmetricstate.c:237-573`). -/
def SOp.run (CB : CipherBackend) {HB : HashBackend} : SymState HB → List SOp →
    Out (List (SOp × Err) × SymState HB)
  | s, [] => pure ([], s)
  | s, op :: ops => do
    let (e, s') ← op.step CB s
    let (es, s'') ← SOp.run CB s' ops
    pure ((op, e) :: es, s'')

end Noise
