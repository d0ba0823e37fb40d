import Verif.Model.Kem

/-! # Model of ref/randombytes.c and of the randomised calls of ref/kem.c

The operating system is external. It is modelled by a stream of random bytes of which `pos` have been delivered, and the list of the results that its next calls will have; a
call for which no result is listed never returns. A call that succeeds delivers the next bytes of the stream, at most as many as asked for (the contract of getrandom(2) and
read(2)); it may deliver fewer, or none.

`abort()` ends the process. A function that may call it returns an `Option`, `none` meaning that the process was aborted. -/

namespace Verif.Model

/-- Result of a call to the operating system. -/
inductive SysRet where
  /-- success, up to `n` bytes -/
  | got (n : Nat)
  /-- -1 with errno EINTR -/
  | eintr
  /-- -1 with another errno -/
  | fail
  deriving DecidableEq, Repr

structure OS where
  src : Nat → UInt8
  pos : Nat
  calls : List SysRet

/-- What a system call returns: the count, or -1 and whether errno is EINTR. -/
inductive Ret where
  | count (n : Nat)
  | err (isEintr : Bool)

/-- `syscall(SYS_getrandom, out, outlen, 0)`, `getrandom(out, outlen, 0)` or `read(fd, out, outlen)`: external. -/
def sysRandom (os : OS) (out : Mem UInt8) (oo outlen : Nat) : C (Ret × Mem UInt8 × OS) :=
  match os.calls with
  | [] => .diverge
  | .got n :: cs => do
    let n := min n outlen
    let out ← cfor 0 n out fun i out => wr out (oo + i) (os.src (os.pos + i))
    pure (.count n, out, ⟨os.src, os.pos + n, cs⟩)
  | .eintr :: cs => pure (.err true, out, ⟨os.src, os.pos, cs⟩)
  | .fail :: cs => pure (.err false, out, ⟨os.src, os.pos, cs⟩)

/-- State of the loop of `randombytes`: the pointer is `out + oo`; `aborted` after abort(). -/
structure RandSt where
  out : Mem UInt8
  oo : Nat
  outlen : Nat
  os : OS
  aborted : Bool

/-- ref/randombytes.c:48-55, 63-70 and 87-94, the body of the loop. -/
def randBody (s : RandSt) : C RandSt := do
  let (ret, out, os) ← sysRandom s.os s.out s.oo s.outlen
  match ret with
  | .err e =>
    cif e
      (pure { s with out := out, os := os })
      (pure { s with out := out, os := os, aborted := true })
  | .count n => do
    C.leak (.br false)
    C.leak (.br false)
    pure { s with out := out, os := os, oo := s.oo + n, outlen := s.outlen - n }

/-- ref/randombytes.c:44-57 (Linux) and 59-72 (NetBSD) `randombytes`. Every iteration makes a system call, so the number of iterations is bounded by the number of listed results
(the last one blocks). -/
def randombytes (os : OS) (out : Mem UInt8) (oo outlen : Nat) : C (Option (Mem UInt8 × OS)) := do
  let s ← cwhile (os.calls.length + 1) (fun s : RandSt => !s.aborted && decide (0 < s.outlen)) randBody ⟨out, oo, outlen, os, false⟩
  pure (if s.aborted then none else some (s.out, s.os))

/-- Loop of ref/randombytes.c:78-84: `opens` are the results of the calls of open("/dev/urandom") (`got` meaning a descriptor). Returns the remaining results, or `none` if aborted. -/
def openLoop (opens : List SysRet) : C (Option (List SysRet)) :=
  match opens with
  | [] => .diverge
  | .got _ :: cs => pure (some cs)
  | .eintr :: cs => openLoop cs
  | .fail :: _ => pure none

/-- ref/randombytes.c:74-96 (other systems) `randombytes`. `fd` is the static variable: whether the device is open already. -/
def randombytesDev (fd : Bool) (opens : List SysRet) (os : OS) (out : Mem UInt8) (oo outlen : Nat) : C (Option (Mem UInt8 × OS × List SysRet)) := do
  let o ← cif fd (pure (some opens)) (openLoop opens)
  match o with
  | none => pure none
  | some opens => do
    let r ← randombytes os out oo outlen
    pure (r.map fun s => (s.1, s.2, opens))

/-- ref/randombytes.c:24-42 (Windows) `randombytes`. `acq`, `rel`: whether CryptAcquireContext and CryptReleaseContext succeed; `oks` whether the successive calls of
CryptGenRandom succeed (a call that does fills its whole buffer with the next bytes of the stream). -/
def randombytesWin (acq rel : Bool) (oks : List Bool) (src : Nat → UInt8) (out : Mem UInt8) (oo outlen : Nat) : C (Option (Mem UInt8 × Nat)) := do
  let (out, pos, _, _, _, ab) ← cwhile (outlen + 1) (fun (_, _, _, outlen, _, ab) => !ab && decide (0 < outlen))
    (fun (out, pos, oo, outlen, oks, _) => do
      let len := if outlen > 1048576 then 1048576 else outlen
      match oks with
      | [] => .diverge
      | false :: oks => pure (out, pos, oo, outlen, oks, true)
      | true :: oks => do
        let out ← cfor 0 len out fun i out => wr out (oo + i) (src (pos + i))
        pure (out, pos + len, oo + len, outlen - len, oks, false)) (out, 0, oo, outlen, oks, !acq)
  pure (if ab || !rel then none else some (out, pos))

/-- ref/kem.c:50-57 `crypto_kem_keypair`. -/
def crypto_kem_keypair (p : ParamSet) (fuel : Nat) (os : OS) (pk sk : Mem UInt8) : C (Option (Mem UInt8 × Mem UInt8 × Int × OS)) := do
  let coins := Mem.uninit UInt8 (2 * KYBER_SYMBYTES)
  let r ← randombytes os coins 0 (2 * KYBER_SYMBYTES)
  match r with
  | none => pure none
  | some (coins, os) => do
    let (pk, sk, _) ← crypto_kem_keypair_derand p fuel pk sk coins
    pure (some (pk, sk, 0, os))

/-- ref/kem.c:113-121 `crypto_kem_enc`. -/
def crypto_kem_enc (p : ParamSet) (fuel : Nat) (os : OS) (ct ss pk : Mem UInt8) : C (Option (Mem UInt8 × Mem UInt8 × Int × OS)) := do
  let coins := Mem.uninit UInt8 KYBER_SYMBYTES
  let r ← randombytes os coins 0 KYBER_SYMBYTES
  match r with
  | none => pure none
  | some (coins, os) => do
    let (ct, ss, _) ← crypto_kem_enc_derand p fuel ct ss pk coins
    pure (some (ct, ss, 0, os))

end Verif.Model
