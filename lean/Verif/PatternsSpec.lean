import Verif.DH
/-!
# Handshake patterns, as the Noise specification writes them

Independent of the tables in `src/protocol/patterns.c`: the patterns are transcribed from sections 7
and 10.4 of the Noise specification (the revision with `ee`, `es`, `se`, `ss` tokens), and the
`noidh` and `hfs` variants are obtained by the transformations that define them.
-/

namespace Noise
namespace Spec

/-- Tokens of a message pattern. -/
inductive Tok
  | e | s | f | ee | es | se | ss | ff
  deriving DecidableEq, Repr

/-- Pre-messages of the initiator and of the responder, and the messages, sent alternately, the
initiator first. -/
structure Pattern where
  preI : List Tok := []
  preR : List Tok := []
  msgs : List (List Tok)
  deriving DecidableEq, Repr

open Tok in
/-- The basic patterns. -/
def basePattern : String → Option Pattern
  | "N" => some { preR := [s], msgs := [[e, es]] }
  | "K" => some { preI := [s], preR := [s], msgs := [[e, es, ss]] }
  | "X" => some { preR := [s], msgs := [[e, es, s, ss]] }
  | "NN" => some { msgs := [[e], [e, ee]] }
  | "NK" => some { preR := [s], msgs := [[e, es], [e, ee]] }
  | "NX" => some { msgs := [[e], [e, ee, s, es]] }
  | "XN" => some { msgs := [[e], [e, ee], [s, se]] }
  | "XK" => some { preR := [s], msgs := [[e, es], [e, ee], [s, se]] }
  | "XX" => some { msgs := [[e], [e, ee, s, es], [s, se]] }
  | "KN" => some { preI := [s], msgs := [[e], [e, ee, se]] }
  | "KK" => some { preI := [s], preR := [s], msgs := [[e, es, ss], [e, ee, se]] }
  | "KX" => some { preI := [s], msgs := [[e], [e, ee, se, s, es]] }
  | "IN" => some { msgs := [[e, s], [e, ee, se]] }
  | "IK" => some { preR := [s], msgs := [[e, es, s, ss], [e, ee, se]] }
  | "IX" => some { msgs := [[e, s], [e, ee, se, s, es]] }
  | "XXfallback" => some { preR := [e], msgs := [[e, ee, s, se], [s, es]] }
  | _ => none

/-- `noidh` ("no identity hiding"): in a message with both `e` and `s`, `s` is sent in the clear
directly after `e`. -/
def noidhMsg (m : List Tok) : List Tok :=
  if m.contains .e && m.contains .s then
    (m.filter (· != .s)).flatMap fun t => if t = .e then [.e, .s] else [t]
  else m

/-- `hfs` (hybrid forward secrecy): `f` follows every `e` and `ff` follows every `ee`. -/
def hfsMsg (m : List Tok) : List Tok :=
  m.flatMap fun
    | .e => [.e, .f]
    | .ee => [.ee, .ff]
    | t => [t]

/-- The `noidh` variant of a pattern. -/
def Pattern.noidh (p : Pattern) : Pattern := { p with msgs := p.msgs.map noidhMsg }

/-- The `hfs` variant of a pattern. -/
def Pattern.hfs (p : Pattern) : Pattern :=
  { preI := hfsMsg p.preI, preR := hfsMsg p.preR, msgs := p.msgs.map hfsMsg }

/-- The pattern a name stands for: base name, `noidh`, `hfs`. -/
def pattern (base : String) (noidh hfs : Bool) : Option Pattern :=
  (basePattern base).map fun p =>
    let p := if noidh then p.noidh else p
    if hfs then p.hfs else p

/-- A step of a handshake: a party sends a token. -/
abbrev Event := Role × Tok

/-- The token events of a list of messages, `r` sending the first. -/
def events : Role → List (List Tok) → List Event
  | _, [] => []
  | r, m :: ms => m.map (fun t => (r, t)) ++ events r.flip ms

/-- The public keys whose owner and kind are known to both sides before the first message. -/
def Pattern.known (p : Pattern) : List Event :=
  p.preI.map (fun t => (Role.initiator, t)) ++ p.preR.map (fun t => (Role.responder, t))

/-- The two public keys of a Diffie-Hellman token. -/
def needs : Tok → List Event
  | .ee => [(.initiator, .e), (.responder, .e)]
  | .es => [(.initiator, .e), (.responder, .s)]
  | .se => [(.initiator, .s), (.responder, .e)]
  | .ss => [(.initiator, .s), (.responder, .s)]
  | .ff => [(.initiator, .f), (.responder, .f)]
  | _ => []

/-- The tokens that transmit a public key. -/
def Tok.isKey : Tok → Bool
  | .e | .s | .f => true
  | _ => false

/-- Rule: no party transmits the same kind of key twice, counting pre-messages. -/
def Pattern.NoRepeat (p : Pattern) : Prop :=
  ∀ x ∈ p.known ++ events .initiator p.msgs, x.2.isKey = true →
    (p.known ++ events .initiator p.msgs).count x = 1

/-- Rule: when a Diffie-Hellman token is met, both public keys have been transmitted (earlier in the
same message, in an earlier message or in a pre-message). -/
def Pattern.KeysAvailable (p : Pattern) : Prop :=
  ∀ i, ∀ h : i < (events .initiator p.msgs).length,
    ∀ x ∈ needs (events .initiator p.msgs)[i].2,
      x ∈ p.known ++ (events .initiator p.msgs).take i

/-- The Diffie-Hellman tokens in which party `r` uses its static private key, each with the token in
which `r` uses its ephemeral private key with the same public key of the other party. -/
def staticDh : Role → List (Tok × Tok)
  | .initiator => [(.se, .ee), (.ss, .es)]
  | .responder => [(.es, .ee), (.ss, .se)]

/-- Party `r` may encrypt after the tokens `done`: every Diffie-Hellman with its static key is
accompanied by one with its ephemeral key and the same remote public key. -/
def mayEncrypt (r : Role) (done : List Event) : Prop :=
  ∀ d ∈ staticDh r, d.1 ∈ done.map Prod.snd → d.2 ∈ done.map Prod.snd

instance (r : Role) (done : List Event) : Decidable (mayEncrypt r done) :=
  inferInstanceAs (Decidable (∀ _ ∈ _, _))

/-- Rule: the sender may encrypt wherever it does: at an `s` or `f` token, and at the end of each
message (the payload). -/
def Pattern.EncryptRule (p : Pattern) : Prop :=
  (∀ i, ∀ h : i < (events .initiator p.msgs).length,
    (events .initiator p.msgs)[i].2 = .s ∨ (events .initiator p.msgs)[i].2 = .f →
      mayEncrypt (events .initiator p.msgs)[i].1 ((events .initiator p.msgs).take i)) ∧
  (∀ n, n < p.msgs.length →
    mayEncrypt (if n % 2 = 0 then .initiator else .responder)
      (events .initiator (p.msgs.take (n + 1))))

instance (p : Pattern) : Decidable p.NoRepeat :=
  inferInstanceAs (Decidable (∀ _ ∈ _, _ → _))
instance (p : Pattern) : Decidable p.KeysAvailable :=
  inferInstanceAs (Decidable (∀ i, ∀ _ : i < _, _))
instance (p : Pattern) : Decidable p.EncryptRule :=
  inferInstanceAs (Decidable (_ ∧ _))

/-- Party `r` has a key of kind `t` in this pattern (transmitted or in a pre-message). -/
def Pattern.hasKey (p : Pattern) (r : Role) (t : Tok) : Bool :=
  (p.known ++ events .initiator p.msgs).contains (r, t)

/-- Party `r`'s key of kind `t` is in a pre-message. -/
def Pattern.preKey (p : Pattern) (r : Role) (t : Tok) : Bool := p.known.contains (r, t)

/-- The pattern each pattern name stands for: base pattern, `noidh`, `hfs`. -/
def patternNames : List (String × String × Bool × Bool) :=
  [("N", "N", false, false), ("X", "X", false, false), ("K", "K", false, false),
   ("NN", "NN", false, false), ("NK", "NK", false, false), ("NX", "NX", false, false),
   ("XN", "XN", false, false), ("XK", "XK", false, false), ("XX", "XX", false, false),
   ("KN", "KN", false, false), ("KK", "KK", false, false), ("KX", "KX", false, false),
   ("IN", "IN", false, false), ("IK", "IK", false, false), ("IX", "IX", false, false),
   ("XXfallback", "XXfallback", false, false),
   ("Xnoidh", "X", true, false), ("NXnoidh", "NX", true, false), ("XXnoidh", "XX", true, false),
   ("KXnoidh", "KX", true, false), ("IKnoidh", "IK", true, false), ("IXnoidh", "IX", true, false),
   ("NNhfs", "NN", false, true), ("NKhfs", "NK", false, true), ("NXhfs", "NX", false, true),
   ("XNhfs", "XN", false, true), ("XKhfs", "XK", false, true), ("XXhfs", "XX", false, true),
   ("KNhfs", "KN", false, true), ("KKhfs", "KK", false, true), ("KXhfs", "KX", false, true),
   ("INhfs", "IN", false, true), ("IKhfs", "IK", false, true), ("IXhfs", "IX", false, true),
   ("XXfallback+hfs", "XXfallback", false, true),
   ("NXnoidh+hfs", "NX", true, true), ("XXnoidh+hfs", "XX", true, true),
   ("KXnoidh+hfs", "KX", true, true), ("IKnoidh+hfs", "IK", true, true),
   ("IXnoidh+hfs", "IX", true, true)]

/-- The pattern with a given name. -/
def patternNamed (name : String) : Option Pattern :=
  match patternNames.find? (·.1 == name) with
  | some (_, base, noidh, hfs) => pattern base noidh hfs
  | none => none

end Spec
end Noise
