/-! # The shell scripts runtests.sh and runlcov.sh

The scripts are programs of a small language with the meaning that POSIX gives to the constructs they use: assignments, `export`, parameters with
default values, command substitution, splitting into fields, `if` with `test`, `for`, redirection of the output, `exit`, and the option `-e`.
Everything that is not part of the shell is a parameter (`Host`): what a command does, which status it returns, what `$(...)` delivers. The built-in
commands `echo` and `cd` count as commands too. Left out: pathname expansion (no word of the scripts has a pattern character outside quotes), and the rule
of POSIX that the meaning of `test` with more than four arguments is unspecified (here `-a`, `-o` join two comparisons, as all shells do unless an operand
looks like an operator). -/

set_option autoImplicit false

namespace Verif.Model.Script

/-- Text as a list of character codes. -/
abbrev Text := List Nat

/-- `t! "..."` is the list of the codes of the characters. -/
macro "t! " s:str : term => do
  let cs : Array Lean.Term := (s.getString.toList.map fun c => Lean.Syntax.mkNumLit (toString c.toNat)).toArray
  `(([$cs,*] : Text))

/-- The variables of the scripts. -/
inductive Var | nproc | ARCH | TRAVIS_CPU_ARCH | TRAVIS_OS_NAME | CC | DIRS | dir | alg
deriving DecidableEq

/-- Parts of a word: text, `$x`, `${x:-t}`, `${x:-$y}`, `$(cmd)`. -/
inductive Piece
  | lit (t : Text)
  | var (x : Var)
  | orLit (x : Var) (t : Text)
  | orVar (x y : Var)
  | cmd (argv : List Text)

/-- `[ a = b ]`, `[ a != b ]` with quoted words, and `-a`, `-o`. -/
inductive Test
  | eq (a b : List Piece)
  | ne (a b : List Piece)
  | and (a b : Test)
  | or (a b : Test)

inductive Stmt
  | skip
  | seq (a b : Stmt)
  | assign (x : Var) (w : List Piece)
  | export (x : Var) (w : List Piece)
  | run (args : List (List Piece)) (out : Option (List Piece))
  | cond (t : Test) (a b : Stmt)
  | loop (x : Var) (words : List (List Piece)) (body : Stmt)
  | exit (n : Nat)

/-- A command: its words, the file that gets its output, and the value of `CC` in its environment. (The other variables of the scripts mean nothing to the
commands; `CC` is assigned by `export` only, and a variable that comes from the environment stays exported.) -/
structure Command where
  argv : List Text
  out : Option Text
  cc : Option Text

/-- What is outside of the shell: the effect and the status of a command, and for `$(...)` the effect and the output. -/
structure Host (σ : Type) where
  exec : σ → Command → σ × Nat
  capture : σ → Command → σ × Text

structure St (σ : Type) where
  world : σ
  val : Var → Option Text

/-- Continue, or end with a status. -/
inductive Out (σ : Type)
  | next (s : St σ)
  | done (w : σ) (status : Nat)

variable {σ : Type}

def St.set (s : St σ) (x : Var) (t : Text) : St σ := { s with val := fun y => if y = x then some t else s.val y }

/-- `${x:-t}`: `t` if `x` is not set or empty. -/
def orElse (v : Option Text) (t : Text) : Text :=
  match v with
  | none => t
  | some [] => t
  | some (a :: l) => a :: l

/-- Output of `$(...)`: without the newlines at its end. -/
def trim (t : Text) : Text := (t.reverse.dropWhile (· == 10)).reverse

/-- The text of a part and whether it comes from an expansion. -/
def expand (h : Host σ) (s : St σ) : Piece → St σ × List (Nat × Bool)
  | .lit t => (s, t.map (·, false))
  | .var x => (s, ((s.val x).getD []).map (·, true))
  | .orLit x t => (s, (orElse (s.val x) t).map (·, true))
  | .orVar x y => (s, (orElse (s.val x) ((s.val y).getD [])).map (·, true))
  | .cmd argv =>
    let r := h.capture s.world ⟨argv, none, s.val .CC⟩
    ({ s with world := r.1 }, (trim r.2).map (·, true))

def expandWord (h : Host σ) (s : St σ) : List Piece → St σ × List (Nat × Bool)
  | [] => (s, [])
  | p :: ps =>
    let r := expand h s p
    let q := expandWord h r.1 ps
    (q.1, r.2 ++ q.2)

/-- Space, tab and newline. -/
def blank (n : Nat) : Bool := n == 32 || n == 9 || n == 10

/-- Fields: cut at the blanks that come from expansions. `cur` is the field so far, `none` between fields. -/
def fields (cur : Option Text) : List (Nat × Bool) → List Text
  | [] => cur.toList
  | (c, e) :: l => if e && blank c then cur.toList ++ fields none l else fields (some (cur.getD [] ++ [c])) l

/-- A word in quotes or in an assignment: one field. -/
def quoted (h : Host σ) (s : St σ) (w : List Piece) : St σ × Text :=
  let r := expandWord h s w
  (r.1, r.2.map (·.1))

def words (h : Host σ) (s : St σ) : List (List Piece) → St σ × List Text
  | [] => (s, [])
  | w :: ws =>
    let r := expandWord h s w
    let q := words h r.1 ws
    (q.1, fields none r.2 ++ q.2)

def test (h : Host σ) (s : St σ) : Test → St σ × Bool
  | .eq a b =>
    let x := quoted h s a
    let y := quoted h x.1 b
    (y.1, x.2 == y.2)
  | .ne a b =>
    let x := quoted h s a
    let y := quoted h x.1 b
    (y.1, x.2 != y.2)
  | .and a b =>
    let x := test h s a
    let y := test h x.1 b
    (y.1, x.2 && y.2)
  | .or a b =>
    let x := test h s a
    let y := test h x.1 b
    (y.1, x.2 || y.2)

def redirect (h : Host σ) (s : St σ) : Option (List Piece) → St σ × Option Text
  | none => (s, none)
  | some w => let r := quoted h s w; (r.1, some r.2)

/-- The iterations of a loop. -/
def each (f : St σ → Out σ) (x : Var) : List Text → St σ → Out σ
  | [], s => .next s
  | t :: ts, s =>
    match f (s.set x t) with
    | .next s' => each f x ts s'
    | .done w n => .done w n

/-- Meaning of a program; `e` says whether the option `-e` is set. -/
def eval (h : Host σ) (e : Bool) : Stmt → St σ → Out σ
  | .skip, s => .next s
  | .seq a b, s =>
    match eval h e a s with
    | .next s' => eval h e b s'
    | .done w n => .done w n
  | .assign x w, s => let r := quoted h s w; .next (r.1.set x r.2)
  | .export x w, s => let r := quoted h s w; .next (r.1.set x r.2)
  | .run args out, s =>
    let a := words h s args
    let o := redirect h a.1 out
    let r := h.exec o.1.world ⟨a.2, o.2, o.1.val .CC⟩
    if e && r.2 != 0 then .done r.1 r.2 else .next { o.1 with world := r.1 }
  | .cond t a b, s => let r := test h s t; if r.2 then eval h e a r.1 else eval h e b r.1
  | .loop x ws body, s => let r := words h s ws; each (eval h e body) x r.2 r.1
  | .exit n, s => .done s.world n

/-- The shell starts with the variables of its environment. -/
def start (w : σ) (env : Var → Option Text) : St σ := ⟨w, env⟩

/-- The world and the status after the script. The scripts end with `exit`; the status of a script that does not is not needed. -/
def runScript (h : Host σ) (e : Bool) (p : Stmt) (w : σ) (env : Var → Option Text) : Option (σ × Nat) :=
  match eval h e p (start w env) with
  | .done w n => some (w, n)
  | .next _ => none

def block : List Stmt → Stmt
  | [] => .skip
  | a :: l => .seq a (block l)

def lits (ts : List Text) : List (List Piece) := ts.map fun t => [.lit t]

/-- runtests.sh:19-20: `make -j$(nproc) -C $dir`, followed by `rest`. -/
def makeIn (rest : List Text) : Stmt :=
  .run ([[.lit (t! "make")], [.lit (t! "-j"), .cmd [t! "nproc"]], [.lit (t! "-C")], [.var .dir]] ++ lits rest) none

/-- runtests.sh:21-26, the loop over the parameter sets. -/
def testAlg : Stmt := block [
  .run [[.lit (t! "valgrind")], [.lit (t! "--vex-guest-max-insns=25")], [.lit (t! "./"), .var .dir, .lit (t! "/test/test_kyber"), .var .alg]] none,
  .run [[.lit (t! "echo")], [.lit (t! "test_kyber"), .var .alg]] none,
  .run [[.lit (t! "./"), .var .dir, .lit (t! "/test/test_kyber"), .var .alg]] none,
  .run [[.lit (t! "./"), .var .dir, .lit (t! "/test/test_vectors"), .var .alg]] (some [.lit (t! "tvecs"), .var .alg])]

/-- runtests.sh:1-30. Its first line gives the option `-e` when the file is executed. -/
def runtests : Stmt := block [
  .assign .nproc [.orLit .nproc (t! "2")],
  .assign .ARCH [.orLit .ARCH (t! "amd64")],
  .assign .ARCH [.orVar .TRAVIS_CPU_ARCH .ARCH],
  .cond (.and (.eq [.var .ARCH] [.lit (t! "amd64")]) (.ne [.var .TRAVIS_OS_NAME] [.lit (t! "osx")]))
    (.assign .DIRS [.lit (t! "ref avx2")])
    (.assign .DIRS [.lit (t! "ref")]),
  .cond (.or (.eq [.var .ARCH] [.lit (t! "amd64")]) (.eq [.var .ARCH] [.lit (t! "arm64")]))
    (.export .CC [.lit (t! "/usr/bin/gcc")])
    .skip,
  .loop .dir [[.var .DIRS]] (block [
    makeIn [t! "clean"],
    makeIn [],
    .loop .alg (lits [t! "512", t! "768", t! "1024"]) testAlg,
    .run (lits [t! "shasum", t! "-a256", t! "-c", t! "SHA256SUMS"]) none]),
  .exit 0]

/-- runlcov.sh:1-21. -/
def runlcov : Stmt := block [
  .run (lits [t! "cd", t! "ref"]) none,
  .loop .alg (lits [t! "512", t! "768", t! "1024"]) (block [
    .run [[.lit (t! "make")], [.lit (t! "-B")], [.lit (t! "test/test_kyber"), .var .alg], [.lit (t! "CFLAGS=-O0 -g --coverage")]] none,
    .run [[.lit (t! "./test/test_kyber"), .var .alg]] none,
    .run [[.lit (t! "lcov")], [.lit (t! "-c")], [.lit (t! "-d")], [.lit (t! ".")], [.lit (t! "-o")], [.lit (t! "kyber"), .var .alg, .lit (t! ".lcov")]] none,
    .run (lits [t! "lcov", t! "-z", t! "-d", t! "."]) none,
    .run [[.lit (t! "rm")], [.lit (t! "test/test_kyber"), .var .alg]] none]),
  .run (lits [t! "lcov", t! "-o", t! "kyber.lcov", t! "-a", t! "kyber512.lcov", t! "-a", t! "kyber768.lcov", t! "-a", t! "kyber1024.lcov"]) none,
  .run (lits [t! "lcov", t! "-r", t! "kyber.lcov", t! "-o", t! "kyber.lcov", t! "*/test/test_kyber.c"]) none,
  .exit 0]

/-- SHA256SUMS:1-3: the sum as a number, and the file. -/
def sums : List (Nat × Text) := [
  (0x4d34994299a8f8dcb36c550951a00f6e16918d6d5b6f280ee2aa12a7bf8375a0, t! "tvecs512"),
  (0xb59ac4d2b429b1f8c3b8a5542fb638179da2fd8b1212891d2f976e70e219fed1, t! "tvecs768"),
  (0x3f577090c7cb7a345ce0417a2a2353153a9f1b8d79f8d927cb6a7b4ec17fd2a1, t! "tvecs1024")]

/-- Kyber512_META.yml, Kyber768_META.yml, Kyber1024_META.yml, line 10: `testvectors-sha256`. -/
def metaSums : List (Text × Nat) := [
  (t! "512", 0x6730bb552c22d9d2176ffb5568e48eb30952cf1f065073ec5f9724f6a3c6ea85),
  (t! "768", 0x667c8ca2ca93729c0df6ff24588460bad1bbdbfb64ece0fe8563852a7ff348c6),
  (t! "1024", 0xff1a854b9b6761a70c65ccae85246fe0596a949e72eae0866a8a2a2d4ea54b10)]

/-- The programs behind the default goal. ref/Makefile:14-39 (`all`: `test`, `speed`, `nistkat`; the shared libraries are left out here, see Model/Link), avx2/Makefile:19-31 (`all`: the tests and `speed`). -/
def defaultGoals (d : Text) : List Text :=
  [t! "test/test_kyber512", t! "test/test_kyber768", t! "test/test_kyber1024", t! "test/test_vectors512", t! "test/test_vectors768", t! "test/test_vectors1024",
    t! "test/test_speed512", t! "test/test_speed768", t! "test/test_speed1024"] ++
  if d = t! "ref" then [t! "nistkat/PQCgenKAT_kem512", t! "nistkat/PQCgenKAT_kem768", t! "nistkat/PQCgenKAT_kem1024"] else []

/-- The programs that `make clean` removes by name: ref/Makefile:93-109, avx2/Makefile:101-112. -/
def cleaned (d : Text) : List Text :=
  [t! "test/test_kyber512", t! "test/test_kyber768", t! "test/test_kyber1024", t! "test/test_vectors512", t! "test/test_vectors768", t! "test/test_vectors1024",
    t! "test/test_speed512", t! "test/test_speed768", t! "test/test_speed1024"] ++
  if d = t! "ref" then [t! "nistkat/PQCgenKAT_kem512", t! "nistkat/PQCgenKAT_kem768", t! "nistkat/PQCgenKAT_kem1024"] else [t! "keccak4x/KeccakP-1600-times4-SIMD256.o"]

end Verif.Model.Script
