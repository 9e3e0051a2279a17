import Verif.Model.Basic
/-!
Model of `src/prep/FillingSequence_with_gomspace_pings.cpp`, the program that runs on the flight computer while the propulsion
tanks are filled before launch. It has no inputs: a run is a sequence of actions whose durations vary.
-/
namespace PAN.Fill

/-- What the program does: write a pin, wait, read a register of the power supply
(src/prep/FillingSequence_with_gomspace_pings.cpp:19-35 `ping_gomspace`), print a line. -/
inductive Act
  | level (pin : Nat) (high : Bool)
  | wait (ms : Nat)
  | ping
  | print
  deriving DecidableEq, Repr

/-- src/prep/FillingSequence_with_gomspace_pings.cpp:6-11, 18 `valve_array`. -/
def valveArray : List Nat := [3, 4, 5, 6, 27, 28]

/-- src/prep/FillingSequence_with_gomspace_pings.cpp:37-43 `fire`. -/
def fire (pin : Nat) : List Act := [.level 13 true, .level pin true, .wait 3]

/-- src/prep/FillingSequence_with_gomspace_pings.cpp:45-50 `stop_fire`. -/
def stopFire (pin : Nat) : List Act := [.level pin false, .level 13 false, .wait 3]

/-- `for (int i = 0; i < n; i++) body`. -/
def times (n : Nat) (body : List Act) : List Act := (List.replicate n body).flatten

/-- src/prep/FillingSequence_with_gomspace_pings.cpp:91-104, 109-121, 136-148, 162-173, 185-195, 212-224, 230-242, 253-265: padding, open the valves
`from ≤ valve < to`, keep them open, close them; the padding that follows is at the places of use. -/
def pulse (start stop ms : Nat) : List Act :=
  [.wait 5000] ++
  ((valveArray.take stop).drop start).flatMap (fun v => fire v ++ [.print]) ++
  [.wait ms] ++
  ((valveArray.take stop).drop start).flatMap (fun v => stopFire v ++ [.print])

/-- src/prep/FillingSequence_with_gomspace_pings.cpp:53-78 `setup`. Setting pin modes is not modelled. -/
def setup : List Act := [.level 13 false, .level 25 true, .level 24 true, .wait 2500]

/-- src/prep/FillingSequence_with_gomspace_pings.cpp:88-128: one fill of phase 1. -/
def fill1 : List Act :=
  [.print] ++ pulse 0 6 1000 ++ [.wait 5000, .ping] ++
  times 5 ([.print] ++ pulse 0 4 1000 ++ [.wait 5000, .print]) ++
  [.ping, .print]

/-- src/prep/FillingSequence_with_gomspace_pings.cpp:83-154: phase 1. -/
def phase1 : List Act :=
  [.print] ++
  times 10 ([.print] ++ times 7 fill1 ++ [.print] ++
    times 4 ([.print] ++ pulse 0 4 1000 ++ [.wait 5000, .ping, .print]) ++ [.print])

/-- src/prep/FillingSequence_with_gomspace_pings.cpp:156-201: phase 2. -/
def phase2 : List Act :=
  [.print] ++
  times 2 ([.print] ++
    times 10 ([.print] ++ pulse 4 6 400 ++ [.wait 5000, .ping, .print]) ++
    times 10 ([.print] ++ pulse 0 4 1000 ++ [.wait 5000, .ping, .print]) ++ [.print])

/-- src/prep/FillingSequence_with_gomspace_pings.cpp:209-247: one fill of phase 3. -/
def fill3 : List Act :=
  [.print] ++ pulse 0 6 1000 ++ [.ping, .wait 5000] ++
  times 5 ([.print] ++ pulse 0 4 1000 ++ [.wait 5000, .ping, .print]) ++
  [.print]

/-- src/prep/FillingSequence_with_gomspace_pings.cpp:203-273: phase 3 and the last line. -/
def phase3 : List Act :=
  [.print] ++
  times 3 ([.print] ++ times 6 fill3 ++
    times 13 ([.print] ++ pulse 0 4 1000 ++ [.wait 5000, .ping, .print]) ++ [.print]) ++
  [.print]

/-- src/prep/FillingSequence_with_gomspace_pings.cpp:53-78, 80-279 `setup`, then `loop`, with `n` turns of the endless loop in
lines 275-278. -/
def program (n : Nat) : List Act := setup ++ phase1 ++ phase2 ++ phase3 ++ times n [.ping, .wait 1000]

/-- src/fsw/FCCode/Drivers/PropulsionSystem.cpp:31-32, src/fsw/FCCode/Drivers/PropulsionSystem.hpp:274-275: the pins of the valves
between the tanks, in the flight software. -/
def tank1Pins : List Nat := [27, 28]

/-- src/fsw/FCCode/Drivers/PropulsionSystem.cpp:45-48, src/fsw/FCCode/Drivers/PropulsionSystem.hpp:307-310: the pins of the nozzle
valves, in the flight software. -/
def tank2Pins : List Nat := [3, 4, 5, 6]

end PAN.Fill
