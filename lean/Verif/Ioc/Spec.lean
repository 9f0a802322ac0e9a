import Verif.Ioc.Model
/-!
# C115: the request of ioctl is shown by expressions that have its value
-/
namespace Strace.Ioc

/-- `_IOC(dir, type, nr, size)` of asm/ioctl.h -/
def ioc (a : Abi) (d t n s : Nat) : Nat := d * 2 ^ (16 + a.sizeBits) + s * 2 ^ 16 + t * 2 ^ 8 + n

/-- the values of the names of directions -/
def dirValue (a : Abi) : String → Nat
  | "_IOC_NONE" => a.none
  | "_IOC_READ" => a.read
  | "_IOC_WRITE" => a.write
  | _ => 0

/-- the value of an argument -/
def argValue (a : Abi) : Arg → Nat
  | .num n => n
  | .named _ n => n
  | .flags names rest => (names.map (dirValue a)).foldl (· ||| ·) rest

/-- the macros of one argument that is the size: linux/input.h, linux/hiddev.h, linux/hidraw.h, linux/uinput.h, linux/joystick.h;
direction, type and number -/
def sizeMacro (a : Abi) : String → Option (Nat × Nat × Nat)
  | "EVIOCGNAME" => some (a.read, 0x45, 0x06)
  | "EVIOCGPHYS" => some (a.read, 0x45, 0x07)
  | "EVIOCGUNIQ" => some (a.read, 0x45, 0x08)
  | "EVIOCGPROP" => some (a.read, 0x45, 0x09)
  | "EVIOCGMTSLOTS" => some (a.read, 0x45, 0x0a)
  | "EVIOCGKEY" => some (a.read, 0x45, 0x18)
  | "EVIOCGLED" => some (a.read, 0x45, 0x19)
  | "EVIOCGSND" => some (a.read, 0x45, 0x1a)
  | "EVIOCGSW" => some (a.read, 0x45, 0x1b)
  | "HIDIOCGRAWNAME" => some (a.read, 0x48, 0x04)
  | "HIDIOCGRAWPHYS" => some (a.read, 0x48, 0x05)
  | "HIDIOCGNAME" => some (a.read, 0x48, 0x06)
  | "HIDIOCSFEATURE" => some (a.read + a.write, 0x48, 0x06)
  | "HIDIOCGFEATURE" => some (a.read + a.write, 0x48, 0x07)
  | "HIDIOCGRAWUNIQ" => some (a.read, 0x48, 0x08)
  | "HIDIOCGPHYS" => some (a.read, 0x48, 0x12)
  | "UI_GET_SYSNAME" => some (a.read, 0x55, 44)
  | "JSIOCGNAME" => some (a.read, 0x6a, 0x13)
  | _ => none

/-- SPI_MSGSIZE of linux/spi/spidev.h: a transfer has 32 bytes -/
def spiSize (a : Abi) (n : Nat) : Nat := if n * 32 < 2 ^ a.sizeBits then n * 32 else 0

/-- the value of a macro, by the headers of Linux: linux/input.h, linux/soundcard.h, linux/spi/spidev.h; struct input_absinfo has 24
bytes -/
def macroValue (a : Abi) (name : String) (args : List Nat) : Option Nat :=
  match sizeMacro a name, args with
  | some (d, t, n), [len] => some (ioc a d t n len)
  | some _, _ => none
  | none, args =>
    if name = "_IOC" then
      match args with
      | [d, t, n, s] => some (ioc a d t n s)
      | _ => none
    else if name = "EVIOCGBIT" then
      match args with
      | [ev, len] => some (ioc a a.read 0x45 (0x20 + ev) len)
      | _ => none
    else
      match args with
      | [x] =>
        if name = "EVIOCGABS" then some (ioc a a.read 0x45 (0x40 + x) 24)
        else if name = "EVIOCSABS" then some (ioc a a.write 0x45 (0xc0 + x) 24)
        else if name = "MIXER_READ" then some (ioc a a.read 0x4d x 4)
        else if name = "MIXER_WRITE" then some (ioc a (a.read + a.write) 0x4d x 4)
        else if name = "SPI_IOC_MESSAGE" then some (ioc a a.write 0x6b 0 (spiSize a x))
        else none
      | _ => none

/-- the symbols outside of the table of requests: asm-generic/ioctls.h; SECCOMP_IOR(2, __u64) of linux/seccomp.h before 5.9 -/
def known (a : Abi) : List (String × Nat) :=
  [("TCGETS", 0x5401), ("TCSETS", 0x5402), ("TCSETSW", 0x5403), ("TCSETSF", 0x5404), ("TCGETA", 0x5405), ("TCSETA", 0x5406),
   ("TCSETAW", 0x5407), ("TCSETAF", 0x5408), ("SECCOMP_IOCTL_NOTIF_ID_VALID_WRONG_DIR", ioc a a.read 0x21 2 8)]

/-- the expression has this value -/
def HasValue (a : Abi) (table : List (String × Nat)) (e : Expr) (n : Nat) : Prop :=
  match e with
  | .macro name args => macroValue a name (args.map (argValue a)) = some n
  | .sym s => (s, n) ∈ table ++ known a

/-- the fields of a request -/
def Fields (a : Abi) (code d t n s : Nat) : Prop :=
  code = ioc a d t n s ∧ n < 256 ∧ t < 256 ∧ s < 2 ^ a.sizeBits

/-- requests shown by an expression that has another value: direction, type, number and size -/
def Wrong (a : Abi) (d t n s : Nat) : Prop :=
  (t = 0x45 ∧ d = a.write ∧ 0xc0 ≤ n ∧ s ≠ 24) ∨
  (t = 0x45 ∧ d = a.read ∧ 0x40 ≤ n ∧ n < 0x80 ∧ s ≠ 24) ∨
  (t = 0x48 ∧ d = a.read ∧ n = 0x06) ∨
  (t = 0x4d ∧ d = a.write) ∨
  (t = 0x4d ∧ d = a.read ∧ s ≠ 4) ∨
  (t = 0x6b ∧ d = a.write ∧ n = 0 ∧ s ≠ 0)

end Strace.Ioc
