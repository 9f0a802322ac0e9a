/-!
# The cache of /proc/PID/maps: src/mmap_cache.c
-/
namespace Strace.Misc

/-- the ten fields `sscanf` finds in a line, src/mmap_cache.c:99-112; the protection letters as ASCII codes -/
structure MapLine where
  start : Nat
  stop : Nat
  r : Nat
  w : Nat
  x : Nat
  s : Nat
  offset : Nat
  major : Nat
  minor : Nat
  path : String
deriving Repr, DecidableEq

/-- `struct mmap_cache_entry_t`, src/mmap_cache.h -/
structure MapEntry where
  start : Nat
  stop : Nat
  offset : Nat
  prot : Nat
  major : Nat
  minor : Nat
  path : String
deriving Repr, DecidableEq

/-- src/mmap_cache.c:115-123 -/
def knownProt (l : MapLine) : Bool :=
  (l.r = 45 || l.r = 114) && (l.w = 45 || l.w = 119) && (l.x = 45 || l.x = 120) && (l.s = 112 || l.s = 115)

/-- src/mmap_cache.c:158-171; MMAP_CACHE_PROT_READABLE.. are 1, 2, 4, 8 (src/mmap_cache.h) -/
def entryOf (l : MapLine) : MapEntry :=
  { start := l.start, stop := l.stop, offset := l.offset
    prot := (if l.r = 114 then 1 else 0) ||| (if l.w = 119 then 2 else 0) ||| (if l.x = 120 then 4 else 0) |||
      (if l.s = 115 then 8 else 0)
    major := l.major, minor := l.minor, path := l.path }

/-- the tests against the last entry stored, src/mmap_cache.c:135-152: the line is skipped -/
def clashes (l : MapLine) : Option MapEntry → Bool
  | none => false
  | some e => (e.start = l.start && e.stop = l.stop) || (l.start ≤ e.start || l.start < e.stop)

/-- the loop over the lines, src/mmap_cache.c:98-173; `none` is a line with other fields.  `acc` is the array so far. -/
def storeMaps : List (Option MapLine) → List MapEntry → List MapEntry
  | [], acc => acc
  | none :: ls, acc => storeMaps ls acc
  | some l :: ls, acc =>
    if knownProt l then
      if l.stop < l.start then acc
      else if clashes l acc.getLast? then storeMaps ls acc
      else storeMaps ls (acc ++ [entryOf l])
    else storeMaps ls acc

/-- `mmap_cache_search`, src/mmap_cache.c:194-209; the first argument bounds the number of steps, `none` is an access outside
the array or an endless loop -/
def searchLoop (es : List MapEntry) (ip : Nat) : Nat → Int → Int → Option (Option MapEntry)
  | 0, lower, upper => if lower ≤ upper then none else some none
  | fuel + 1, lower, upper =>
    if lower ≤ upper then
      if (upper + lower) / 2 < 0 then none
      else
      match es[((upper + lower) / 2).toNat]? with
      | none => none
      | some e =>
        if ip ≥ e.start ∧ ip < e.stop then some (some e)
        else if ip < e.start then searchLoop es ip fuel lower ((upper + lower) / 2 - 1)
        else searchLoop es ip fuel ((upper + lower) / 2 + 1) upper
    else some none

/-- the search in a cache, src/mmap_cache.c:188-210 -/
def searchMaps (es : List MapEntry) (ip : Nat) : Option (Option MapEntry) :=
  searchLoop es ip es.length 0 ((es.length : Int) - 1)

/-- the cache of a tracee -/
structure MapCache where
  entries : List MapEntry
  generation : Nat
deriving Repr, DecidableEq

/-- the result of `mmap_cache_rebuild_if_invalid` -/
inductive Rebuild where
  | ready | renewed | nocache
deriving Repr, DecidableEq

/-- `mmap_cache_rebuild_if_invalid`, src/mmap_cache.c:70-186; `file` is the content of the maps file, `none` if it cannot be
opened -/
def rebuild (gen : Nat) (cache : Option MapCache) (file : Option (List (Option MapLine))) : Option MapCache × Rebuild :=
  match cache.filter (fun c => c.generation = gen) with
  | some c => (some c, .ready)
  | none =>
    match file with
    | none => (none, .nocache)
    | some ls =>
      if (storeMaps ls []).length = 0 then (none, .nocache)
      else (some { entries := storeMaps ls [], generation := gen }, .renewed)

/-- `mmap_cache_invalidate`, src/mmap_cache.c:18-26: an `unsigned int` counter -/
def invalidate (gen : Nat) : Nat := (gen + 1) % 2 ^ 32

end Strace.Misc
