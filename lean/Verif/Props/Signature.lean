import Verif.Spec.Signature
import Verif.Lemmas.SigMath
import Verif.Props.Export

/-
C38: the signature of an application verifies.
-/

namespace Spasm.Props
open Spasm Spasm.Spec

theorem number_leNat : ∀ l, number l = leNat l
  | [] => rfl
  | b :: bs => by rw [number, leNat, number_leNat bs]

theorem leNat_leBytes : ∀ k x, x < 256 ^ (k + 1) → leNat (leBytes (k + 1) x) = x := by
  intro k
  induction k with
  | zero => intro x h; unfold leBytes; rw [if_pos (by simpa using h)]; simp [leNat]
  | succ k ih =>
    intro x h
    unfold leBytes
    by_cases h1 : x < 256
    · rw [if_pos h1]; simp [leNat]
    · rw [if_neg h1, leNat, ih _ (by rw [Nat.pow_succ] at h; omega)]
      omega

theorem leNat_lt : ∀ l : List Nat, (∀ b ∈ l, b < 256) → leNat l < 256 ^ l.length
  | [], _ => by simp [leNat]
  | b :: bs, h => by
    have := leNat_lt bs (fun x hx => h x (List.mem_cons_of_mem _ hx))
    have h0 := h b List.mem_cons_self
    rw [leNat, List.length_cons, Nat.pow_succ]
    omega

/-- The root taken by siggen is a square root modulo n of any number that is a square modulo both primes. -/
theorem sigRoot_sq (b : Nat) (hp : jacobiSym (b : Int) (leNat pbuf) = 1)
    (hq : jacobiSym (b : Int) (leNat qbuf) = 1) : sigRoot b ^ 2 % leNat nbuf = b % leNat nbuf := by
  have h1 := root_mod _ sig_p (by have := sig_p8; omega) b hp
  have h2 := root_mod _ sig_q (by have := sig_q8; omega) b hq
  have hco := (Nat.coprime_primes sig_p sig_q).2 sig_ne
  rw [sig_n]
  unfold sigRoot powMod
  dsimp only
  rw [sig_p14, sig_q14]
  refine crt_root _ _ _ _ _ b sig_p.pos hco sig_qpowp ?_ ?_
  · rw [← Nat.pow_mod, h1]
  · rw [← Nat.pow_mod, h2]

theorem neg_of (x n a : Nat) (ha : a ≤ n) (hn : 0 < n) (h : x % n = (n - a) % n) : (x + a) % n = 0 := by
  have h1 : (x + a) % n = (n - a + a) % n := Nat.ModEq.add_right a h
  rw [h1, Nat.sub_add_cancel ha, Nat.mod_self]

/-- C38 for the signature function: the number of the signature bytes verifies, for every hash of 16 bytes. -/
theorem C38_siggen (hash : List Nat) (hl : hash.length = 16) (hb : ∀ b ∈ hash, b < 256) :
    Verifies hash (number (siggen hash).1) (siggen hash).2 := by
  have hm : leNat hash * 256 + 1 < 2 ^ 136 := by
    have := leNat_lt hash hb
    rw [hl] at this
    have e : (256 : Nat) ^ 16 * 256 = 2 ^ 136 := by decide
    omega
  have hT : tiModulus = leNat nbuf := by decide +kernel
  have hxlt : ∀ b, sigRoot b < 256 ^ 100 := by
    intro b
    have h := sigRoot_lt b
    have : leNat nbuf < 256 ^ 100 := by decide +kernel
    have e : leNat pbuf * leNat qbuf = leNat nbuf := sig_n.symm
    omega
  have hbig := sig_big
  have hbn : 2 ^ 137 < leNat nbuf := by decide +kernel
  have hsg : (siggen hash) = (leBytes 100 (sigNumber hash).1, (sigNumber hash).2) := rfl
  rw [hsg, number_leNat]
  unfold sigNumber
  dsimp only
  rw [leNat_leBytes 99 _ (hxlt _)]
  unfold Verifies
  dsimp only
  rw [number_leNat, hT, Nat.mul_comm 256 (leNat hash)]
  have hpos : 0 < leNat hash * 256 + 1 := by omega
  generalize leNat hash * 256 + 1 = m at *
  have e137 : (2 : Nat) ^ 137 = 2 * 2 ^ 136 := by rw [Nat.pow_succ, Nat.mul_comm]
  rw [e137] at hbig hbn
  generalize (2 : Nat) ^ 136 = K at *
  have hp1 := jac_pm (leNat pbuf) m sig_p hpos (by omega)
  have hq1 := jac_pm (leNat qbuf) m sig_q hpos (by omega)
  have hp8 := sig_p8
  have hq8 := sig_q8
  have hnp : leNat nbuf % leNat pbuf = 0 := by rw [sig_n]; exact Nat.mul_mod_right _ _
  have hnq : leNat nbuf % leNat qbuf = 0 := by rw [sig_n]; exact Nat.mul_mod_left _ _
  have key := sigRoot_sq
  have np := fun a => jac_neg (leNat pbuf) (leNat nbuf) a (by omega) hnp
  have nq := fun a => jac_neg (leNat qbuf) (leNat nbuf) a (by omega) hnq
  have tp := jac_two_p (leNat pbuf) m hp8
  have tq := jac_two_q (leNat qbuf) m hq8
  unfold sigF sigBase
  generalize leNat nbuf = n at *
  generalize leNat pbuf = p at *
  generalize leNat qbuf = q at *
  rcases hp1 with hp1 | hp1 <;> rcases hq1 with hq1 | hq1 <;> rw [hp1, hq1]
  · simp only [if_true, Nat.reduceEqDiff, if_false, Nat.zero_add]
    refine .inr (.inr (.inl ⟨trivial, ?_⟩))
    rw [key m hp1 hq1, Nat.mod_eq_of_lt (by omega)]
  · simp only [if_true, Nat.zero_add]
    refine .inl ⟨by decide, ?_⟩
    rw [show (if (-1 : Int) = 1 then 1 else 0 : Nat) = 0 from rfl]
    simp only [if_true]
    rw [Nat.mul_comm 2 m]
    refine neg_of _ _ _ (by omega) (by omega) (key _ ?_ ?_)
    · rw [np _ (by omega), tp, hp1]; rfl
    · rw [nq _ (by omega), tq, hq1]; rfl
  · rw [show (if (-1 : Int) = 1 then 0 else 1 : Nat) = 1 from rfl]
    simp only [if_true]
    refine .inr (.inr (.inr ⟨trivial, ?_⟩))
    rw [show (if 1 = 0 then n - m * 2 else m * 2) = m * 2 from rfl, key _ (by rw [tp, hp1]; rfl) (by rw [tq, hq1]),
      Nat.mod_eq_of_lt (by omega), Nat.mul_comm]
  · rw [show (if (-1 : Int) = 1 then 0 else 1 : Nat) = 1 from rfl,
      show (if (-1 : Int) = 1 then 1 else 0 : Nat) = 0 from rfl]
    simp only [if_true]
    refine .inr (.inl ⟨trivial, ?_⟩)
    rw [show (if 1 = 0 then m * 2 else m) = m from rfl]
    refine neg_of _ _ _ (by omega) (by omega) (key _ ?_ ?_)
    · rw [np _ (by omega), hp1]; rfl
    · rw [nq _ (by omega), hq1]; rfl

/-- The hash of the bytes 1 to 16, and the number it is signed for. -/
example : Verifies [1,2,3,4,5,6,7,8,9,10,11,12,13,14,15,16]
    (number (siggen [1,2,3,4,5,6,7,8,9,10,11,12,13,14,15,16]).1) (siggen [1,2,3,4,5,6,7,8,9,10,11,12,13,14,15,16]).2 :=
  C38_siggen _ (by decide) (by decide)

theorem siggen_f (hash : List Nat) : (siggen hash).2 < 4 := by
  show (sigNumber hash).2 < 4
  unfold sigNumber sigF
  dsimp only
  split <;> split <;> decide

/-- C38 in the file: every application file that is not refused holds a program of the assembled length, then the
signature field, then FF bytes, and the signature verifies for the hash of the program that is in the file. MD5 is
any function that returns 16 bytes. -/
theorem C38_app_file (md5 : List Nat → List Nat) (hmd : ∀ l, (md5 l).length = 16 ∧ ∀ b ∈ md5 l, b < 256)
    (name : Str) (s : S) (hn : HasExt name (b! "8XK")) (hg : GoodOutput s) (hl : s.outPtr ≤ 4177824)
    (file : List Nat) (hw : Writes (writeFile md5 name s) name file) (hne : file ≠ []) :
    ∃ prog signature f pad, prog.length = (image s).length ∧
      readHex (file.drop 78) = some (placed (prog ++ signatureField signature f ++ List.replicate pad 0xFF)) ∧
      (∀ b ∈ signature, b < 256) ∧ Verifies (md5 prog) (number signature) f := by
  obtain ⟨file', hw', h⟩ := writes_of_quiet md5 name .t8XK s _ (calcOf_ext name (b! "8XK", .t8XK) (by decide) hn) hg
    (quiet_makeApp md5 (image s) (bytes_image s hg))
  have := writes_unique hw hw'
  subst this
  rcases h with rfl | ⟨b, pages, nm, q, sig, hp, hs, hsb, he, rfl⟩
  · exact absurd rfl hne
  have hlen := length_image s
  have hg0 := hg.1
  have htl : (b.take (image s).length).length = (image s).length := by rw [List.length_take, hp.length]; omega
  have hal : (b.take (image s).length ++ sig).length = (image s).length + 96 := by
    rw [List.length_append, htl, hs]
  have hsl := length_siggen (md5 (b.take (image s).length))
  have hsf := siggen_f (md5 (b.take (image s).length))
  have hv := C38_siggen _ (hmd (b.take (image s).length)).1 (hmd (b.take (image s).length)).2
  have hsby : ∀ x ∈ (siggen (md5 (b.take (image s).length))).1, x < 256 := by unfold siggen; exact bytes_leBytes _ _
  refine ⟨b.take (image s).length, (siggen (md5 (b.take (image s).length))).1,
    (siggen (md5 (b.take (image s).length))).2, ?pad, htl, ?_, hsby, hv⟩
  case pad => exact 96 - ([0x02, 0x2d, (siggen (md5 (b.take (image s).length))).1.length % 256] ++
      (siggen (md5 (b.take (image s).length))).1 ++ (if (siggen (md5 (b.take (image s).length))).2 ≠ 0 then
        [1, (siggen (md5 (b.take (image s).length))).2 % 256] else [0])).length
  rw [List.drop_left' (length_header8xk _ _ hp.nameLen), readHex_intelHex, if_pos]
  · rw [he, List.append_assoc]
    unfold sigBlock signatureField
    dsimp only
    generalize (siggen (md5 (b.take (image s).length))).1 = sg at *
    generalize (siggen (md5 (b.take (image s).length))).2 = f at *
    rw [Nat.mod_eq_of_lt (show sg.length < 256 by omega), Nat.mod_eq_of_lt (show f < 256 by omega)]
    by_cases h0 : f = 0
    · simp only [h0, ne_eq, not_true, if_false, if_true]
    · simp only [h0, ne_eq, not_false_eq_true, if_false, if_true]
  · rw [hal]; omega
  · intro x hx
    rcases List.mem_append.mp hx with hx | hx
    · exact hp.bytesOk x (List.mem_of_mem_take hx)
    · exact hsb x hx

example : ∃ file, Writes (writeFile (fun _ => List.replicate 16 7) (b! "x.8xk") (assembled sampleApp)) (b! "x.8xk") file ∧
    ∃ prog signature f pad, prog.length = 19 ∧
      readHex (file.drop 78) = some (placed (prog ++ signatureField signature f ++ List.replicate pad 0xFF)) ∧
      Verifies (List.replicate 16 7) (number signature) f := by
  have hn : HasExt (b! "x.8xk") (b! "8XK") := hasExt_dot (b! "x") (b! "8xk") _ (by decide) (by decide) (by decide)
  have hg := good_assembled sampleApp (by decide) (by decide)
  obtain ⟨file, hw⟩ := C37_memory_safe (fun _ => List.replicate 16 7) _ _ hn hg
  have ha := accepted _ _ _ hn hg (by decide +kernel) file hw
  obtain ⟨prog, sg, f, pad, h1, h2, -, h3⟩ := C38_app_file _ (by intro l; exact ⟨rfl, by decide⟩) _ _ hn hg (by decide) file hw ha
  exact ⟨file, hw, prog, sg, f, pad, h1, h2, h3⟩

end Spasm.Props
