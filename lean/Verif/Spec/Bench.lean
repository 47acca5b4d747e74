import Verif.Spec.KatFile
/-!
# Specification: the lines of the measurement program and of its host script
-/
namespace Saber.Spec.Bench
open Hex KatFile

/-- A number in hexadecimal with `k` digits, most significant first. -/
def hex (k n : Nat) : List Byte := (List.range k).map fun i => upper (n / 16 ^ (k - 1 - i) % 16)

/-- What the board sends for a number: `0x`, eight digits, end of line. -/
def hexLine (n : Nat) : List Byte := str "0x" ++ hex 8 n ++ str "\r\n"

/-- What the host prints for the four numbers of the memory measurement. -/
def memoryReport (keygen encaps decaps total : Nat) : List Byte :=
  str "RAM for key_gen = " ++ decimal keygen ++ str " bytes\n" ++
  str "RAM for encaps = " ++ decimal encaps ++ str " bytes\n" ++
  str "RAM for decaps = " ++ decimal decaps ++ str " bytes\n" ++
  str "Total RAM for Saber# = " ++ decimal total ++ str " bytes\n" ++
  str "benchmark of memory done!\n"

/-- What the host prints for the three numbers of the time measurement. -/
def timeReport (keygen encaps decaps : Nat) : List Byte :=
  str "Time for key_gen = " ++ decimal keygen ++ str " clock cycles\n" ++
  str "Time for encaps = " ++ decimal encaps ++ str " clock cycles\n" ++
  str "Time for decaps = " ++ decimal decaps ++ str " clock cycles\n" ++
  str "benchmark of time done!\n"

/-- The last value that a list of writes puts at an address, if there is one. -/
def lastWrite (w : List (Nat × Byte)) (x : Nat) : Option Byte := (w.reverse.find? fun p => p.1 = x).map (·.2)

end Saber.Spec.Bench
