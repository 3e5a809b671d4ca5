import Verif.HandshakeCurve25519
/-!
# A test vector of the repository, computed by the model (C12)
-/

namespace Noise

/-- What the turns write: both messages. That the initiator then reads the second one and that both parties reach SPLIT with the
same hash is `C12_curve25519_agreement`. -/
def vecRun : Option (Bytes × Bytes) :=
  match vecMake .initiator, vecMake .responder, vecTurns with
  | some i, some r, [t, u] =>
    match i.start ChaChaPoly.backend, r.start ChaChaPoly.backend with
    | .ok (.none, i1), .ok (.none, r1) =>
      match i1.writeMessage ChaChaPoly.backend t.rnd t.junkW t.mem (some t.payload) with
      | .ok (.none, _, m1) =>
        match r1.readMessage ChaChaPoly.backend t.junkR ⟨m1.bytes ++ t.slack, m1.size⟩ (some t.pmem) with
        | .ok (.none, r2, _, _) =>
          match r2.writeMessage ChaChaPoly.backend u.rnd u.junkW u.mem (some u.payload) with
          | .ok (.none, _, m2) => some (m1.bytes, m2.bytes)
          | _ => none
        | _ => none
      | _ => none
    | _, _ => none
  | _, _, _ => none

/-- The messages are those of the vector, computed in the kernel by the model of the code. -/
example : vecRun = some
    ([0xca, 0x35, 0xde, 0xf5, 0xae, 0x56, 0xce, 0xc3, 0x3d, 0xc2, 0x03, 0x67, 0x31, 0xab, 0x14, 0x89, 0x6b, 0xc4, 0xc7, 0x5d, 0xbb, 0x07, 0xa6, 0x1f, 0x87, 0x9f, 0x8e, 0x3a, 0xfa, 0x4c, 0x79, 0x44, 0x4c, 0x75, 0x64, 0x77, 0x69, 0x67, 0x20, 0x76, 0x6f, 0x6e, 0x20, 0x4d, 0x69, 0x73, 0x65, 0x73],
     [0x95, 0xeb, 0xc6, 0x0d, 0x2b, 0x1f, 0xa6, 0x72, 0xc1, 0xf4, 0x6a, 0x8a, 0xa2, 0x65, 0xef, 0x51, 0xbf, 0xe3, 0x8e, 0x7c, 0xcb, 0x39, 0xec, 0x5b, 0xe3, 0x40, 0x69, 0xf1, 0x44, 0x80, 0x88, 0x43, 0xa0, 0xff, 0x96, 0xbd, 0xf8, 0x6b, 0x57, 0x9e, 0xf7, 0xdb, 0xf9, 0x4e, 0x81, 0x2a, 0x74, 0x70, 0xb9, 0x03, 0xc2, 0x0a, 0x85, 0xa8, 0x7e, 0x3a, 0x1f, 0xe8, 0x63, 0x26, 0x4a, 0xe5, 0x47]) := by
  decide +kernel

end Noise
