import Verif.Handshake
import Verif.Echo
/-!
# What is in `*state` after the creation of a HandshakeState (C85)
-/

namespace Noise

/-- A pointer variable of a caller: null, to an object, or to memory that has been freed. -/
inductive Ptr
  | null | live | dangling
  deriving DecidableEq, Repr

namespace HS
variable {HB : HashBackend} {D G : DHBackend}

/-- `noise_handshakestate_new`, `src/protocol/handshakestate.c:102-231`, as far as the return code and `*state` are concerned,
which its callers have set to null: assigned in line 151, freed in line 225. `mem`: there is memory for the object. The
creation of the DH objects is as in `new`, where memory is always found. -/
def newPtr (D G : DHBackend) (mem : Bool) (sym : SymState HB) (role : Role) : Out (Err × Ptr) :=
  match patternLookup sym.id.patternId with
  | none => .ok (.unknownId, .null)
  | some _ =>
    if !mem then .ok (.noMemory, .null)
    else do
      match ← (new sym role : Out (Except Err (HS HB D G))) with
      | .error e => pure (e, .dangling)
      | .ok _ => pure (.none, .live)

/-- `noise_handshakestate_new_by_id`, `src/protocol/handshakestate.c:256-278`, as `newPtr`. -/
def newByIdPtr (CB : CipherBackend) (D G : DHBackend) (mem : Bool) (ctx0 : HB.Ctx) (stack : Bytes) (id : ProtocolId) (role : Role) :
    Out (Err × Ptr) := do
  match ← SymState.newById CB HB ctx0 stack id with
  | .error e => pure (e, .null)
  | .ok sym => newPtr D G mem sym role

/-- `noise_handshakestate_new_by_name`, `src/protocol/handshakestate.c:302-324`, as `newPtr`. -/
def newByNamePtr (CB : CipherBackend) (D G : DHBackend) (mem : Bool) (ctx0 : HB.Ctx) (name : Bytes) (role : Role) : Out (Err × Ptr) :=
  match SymState.newByName CB HB ctx0 name with
  | .error e => .ok (e, .null)
  | .ok sym => newPtr D G mem sym role

/-- `noise_handshakestate_free`, `src/protocol/handshakestate.c:336-366`, as far as the pointer is concerned. -/
def freePtr : Ptr → Out Err
  | .null => .ok .invalidParam
  | .live => .ok .none
  | .dangling => .ub

end HS

/-- The part of the echo server between the identifier from the network and the handshake, `echo-server.c:287-302`, with lines
373-375, which are reached at once when the creation fails (all between is skipped because `ok` is 0). The result says whether
the program goes on; `handshake` is initially null (line 233). -/
def Echo.serverCreate {HB : HashBackend} (CB : CipherBackend) (D G : DHBackend) (mem : Bool) (ctx0 : HB.Ctx) (stack : Bytes)
    (id : Echo.Id) : Out Bool := do
  if !(Echo.toNoise id).1 then do
    let _ ← HS.freePtr .null
    pure false
  else do
    let (e, p) ← HS.newByIdPtr CB D G mem ctx0 stack (Echo.toNoise id).2 .responder
    if e ≠ .none then do
      let _ ← HS.freePtr p
      pure false
    else pure true

end Noise
