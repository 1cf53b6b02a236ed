import Verif.Props.RecordsThreeB

/-!
# C79 for three states and two colours: programs with some instructions at B0
-/

namespace BB.Records

open Watch

theorem part32_1l0 :
    (fullPart 3 2 36 (1, false, 0)).all (checkAs plan32 rows32) = true := by decide +kernel

theorem part32_1l1 :
    (fullPart 3 2 36 (1, false, 1)).all (checkAs plan32 rows32) = true := by decide +kernel

end BB.Records
