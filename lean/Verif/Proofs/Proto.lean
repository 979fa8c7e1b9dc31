/-
The tables of http/proto/proto.go.
-/
import Verif.Model.Proto

namespace Indigo.Proto

theorem toBytes?_eq (p : Proto) : toBytes? p = some
    (if p = HTTP10 then b!"HTTP/1.0 " else if p = HTTP11 then b!"HTTP/1.1 " else if p = HTTP2 then b!"HTTP/2 " else []) := by
  have h : ∀ n : Fin 256, toBytes? (UInt8.ofNat n.val) = some
      (if UInt8.ofNat n.val = HTTP10 then b!"HTTP/1.0 " else if UInt8.ofNat n.val = HTTP11 then b!"HTTP/1.1 "
        else if UInt8.ofNat n.val = HTTP2 then b!"HTTP/2 " else []) := by decide +kernel
  simpa using h ⟨p.toNat, p.toNat_lt⟩

theorem toBytes_eq (p : Proto) : toBytes p =
    (if p = HTTP10 then b!"HTTP/1.0 " else if p = HTTP11 then b!"HTTP/1.1 " else if p = HTTP2 then b!"HTTP/2 " else []) := by
  rw [toBytes, toBytes?_eq]; rfl

theorem parse?_eq (major minor : UInt8) : parse? major minor = some
    (if major > 9 ∨ minor > 9 then Unknown else if major = 1 ∧ minor = 0 then HTTP10 else if major = 1 ∧ minor = 1 then HTTP11
      else if major = 2 ∧ minor = 0 then HTTP2 else Unknown) := by
  have h : ∀ m n : Fin 10, majorMinorVersionLUT[m.val]?.bind (·[n.val]?) = some
      (if m.val = 1 ∧ n.val = 0 then HTTP10 else if m.val = 1 ∧ n.val = 1 then HTTP11 else if m.val = 2 ∧ n.val = 0 then HTTP2 else Unknown) := by
    decide +kernel
  unfold parse?
  split
  · rfl
  · rename_i hle
    have h1 : major.toNat < 10 := by
      have := UInt8.lt_iff_toNat_lt (a := 9) (b := major)
      simp only [gt_iff_lt, not_or, this] at hle
      have : (9 : UInt8).toNat = 9 := rfl
      omega
    have h2 : minor.toNat < 10 := by
      have := UInt8.lt_iff_toNat_lt (a := 9) (b := minor)
      simp only [gt_iff_lt, not_or, this] at hle
      have : (9 : UInt8).toNat = 9 := rfl
      omega
    rw [h ⟨major.toNat, h1⟩ ⟨minor.toNat, h2⟩]
    have e : ∀ (a : UInt8) (k : UInt8), (a.toNat = k.toNat) = (a = k) := fun a k => by rw [UInt8.toNat_inj]
    have e0 := fun a : UInt8 => e a 0
    have e1 := fun a : UInt8 => e a 1
    have e2 := fun a : UInt8 => e a 2
    simp only [show (0 : UInt8).toNat = 0 from rfl, show (1 : UInt8).toNat = 1 from rfl, show (2 : UInt8).toNat = 2 from rfl] at e0 e1 e2
    simp only [e0, e1, e2]

theorem parse_eq (major minor : UInt8) : parse major minor =
    (if major > 9 ∨ minor > 9 then Unknown else if major = 1 ∧ minor = 0 then HTTP10 else if major = 1 ∧ minor = 1 then HTTP11
      else if major = 2 ∧ minor = 0 then HTTP2 else Unknown) := by
  rw [parse, parse?_eq]; rfl

end Indigo.Proto
