import Verif.Lemmas.BoxPoly

/-!
# Trees for the AMJUEL fits

Generated by `tools/gen_amjuel_certs.py`.  Each tree shows that one combination of fits is positive on one rectangle; the theorems that use them are in
`Props/AmjuelFits.lean`.
-/

namespace Hermes.AmjuelCerts
open BoxPoly

def hIon : Cert :=
  .x (.y (.x (.y (.x (.x .ok .ok) (.x .ok .ok)) (.x (.x .ok .ok) (.x .ok .ok))) (.y (.x (.x .ok .ok) .ok) (.x (.x .ok .ok) .ok))) (.x (.x (.x (.x
  .ok .ok) (.x .ok .ok)) (.x .ok .ok)) (.x (.x (.y .ok .ok) (.y .ok .ok)) (.y .ok .ok)))) (.y (.y (.x (.y .ok .ok) .ok) (.x .ok .ok)) (.x (.y .ok
  .ok) (.y .ok .ok)))

def hRec : Cert :=
  .x (.y (.x (.y (.y .ok .ok) .ok) (.y .ok .ok)) (.x (.x (.y .ok .ok) .ok) .ok)) (.y (.y (.x .ok .ok) .ok) (.x .ok .ok))

def hCold : Cert :=
  .y (.y (.x (.x .ok .ok) (.x .ok (.x .ok .ok))) (.x (.x .ok .ok) (.x .ok .ok))) (.x (.x (.y .ok .ok) (.x .ok .ok)) (.x (.x .ok .ok) (.y .ok (.x .ok
  .ok))))

def hHot : Cert :=
  .x (.y (.y (.x .ok .ok) (.x .ok .ok)) (.x .ok .ok)) (.y (.y .ok .ok) (.x .ok .ok))

def hCost : Cert :=
  .x (.y (.x (.y (.x (.x (.y .ok .ok) .ok) (.x .ok (.y .ok .ok))) (.x (.x .ok .ok) (.x .ok .ok))) (.y (.x (.x (.y .ok .ok) (.y .ok .ok)) (.y .ok
  .ok)) (.x (.x .ok .ok) .ok))) (.x (.x (.y (.x (.y .ok .ok) .ok) (.x (.x (.x .ok .ok) (.x .ok .ok)) (.x (.x .ok .ok) (.x .ok .ok)))) (.y (.x .ok
  .ok) (.x (.x (.x .ok .ok) (.y .ok (.x .ok (.y .ok .ok)))) (.y (.x .ok .ok) (.x (.y .ok (.y .ok (.x .ok .ok))) (.y (.x .ok .ok) (.y (.x .ok .ok)
  (.x .ok .ok)))))))) (.x (.y (.x (.x .ok .ok) .ok) (.y (.x (.x .ok (.y .ok .ok)) (.x (.y .ok .ok) (.y .ok .ok))) (.x (.y (.x (.x .ok .ok) (.y .ok
  .ok)) (.x (.y (.x .ok .ok) (.x .ok .ok)) (.y (.y .ok .ok) (.y .ok .ok)))) (.y (.y (.x .ok .ok) (.x .ok .ok)) (.y (.x .ok .ok) (.x .ok .ok))))))
  (.y (.x .ok .ok) (.y (.x (.y .ok .ok) .ok) (.y (.x (.y .ok .ok) (.y .ok .ok)) (.x (.y (.x .ok .ok) .ok) (.y .ok (.x .ok .ok))))))))) (.y (.y (.x
  (.y (.x .ok .ok) .ok) (.y .ok .ok)) (.x .ok .ok)) (.x (.y (.x .ok .ok) (.x (.y .ok (.y (.y .ok .ok) (.y .ok (.x .ok .ok)))) (.y .ok (.y .ok (.y
  .ok .ok))))) (.y .ok (.x (.y .ok (.y .ok (.y .ok .ok))) (.y .ok (.y .ok (.y .ok .ok)))))))

def hCostTop : Cert :=
  .y (.x (.y (.y (.x (.x (.y .ok .ok) .ok) .ok) (.x (.x .ok .ok) .ok)) (.x (.x .ok .ok) .ok)) (.y (.y (.x .ok (.y .ok .ok)) (.x .ok .ok)) (.x .ok
  .ok))) (.x (.x (.y (.x .ok .ok) (.x .ok .ok)) (.y .ok .ok)) (.x (.y .ok .ok) (.y .ok .ok)))

def hRadiates : Cert :=
  .x (.y (.x (.y (.x (.y (.x .ok .ok) .ok) (.y .ok .ok)) (.x (.x .ok .ok) .ok)) (.y (.y .ok .ok) .ok)) (.x (.y (.x (.x .ok .ok) .ok) (.x (.y (.x .ok
  .ok) (.x .ok .ok)) .ok)) (.y .ok .ok))) (.y (.x (.y (.y .ok .ok) .ok) (.y (.y .ok .ok) .ok)) (.x (.y .ok .ok) .ok))

def hRadiatesTop : Cert :=
  .y (.x (.y (.x (.y .ok .ok) (.y .ok .ok)) (.x (.x .ok .ok) .ok)) (.y (.y (.x .ok .ok) (.x .ok .ok)) (.x .ok .ok))) (.x (.y (.x (.x .ok .ok) .ok)
  (.x (.x .ok .ok) .ok)) (.y (.x .ok .ok) (.x .ok .ok)))

def heCostTop : Cert :=
  .y (.y (.x (.y (.x (.y .ok .ok) .ok) (.x .ok .ok)) (.y (.x .ok (.y .ok .ok)) (.x .ok .ok))) (.x (.x (.x .ok .ok) .ok) (.x .ok .ok))) (.x (.y (.x
  (.x .ok .ok) .ok) (.x (.y .ok .ok) .ok)) (.y (.x .ok .ok) (.x .ok .ok)))

def hRecFalls : Cert :=
  .x (.y (.x (.y (.x (.y (.y .ok .ok) .ok) (.y .ok .ok)) (.x (.x .ok .ok) .ok)) (.y (.x (.y .ok .ok) (.y .ok .ok)) (.y .ok .ok))) (.x (.x (.x (.y
  .ok .ok) (.y .ok .ok)) (.x (.y .ok .ok) (.y .ok .ok))) (.x (.x (.y .ok .ok) (.y .ok .ok)) (.x .ok .ok)))) (.y (.x (.y (.y .ok .ok) .ok) (.y (.y
  .ok .ok) .ok)) (.x (.x .ok .ok) (.x .ok .ok)))

def hIonRises : Cert :=
  .y (.x (.x (.x (.y .ok .ok) (.y .ok .ok)) (.x (.y .ok .ok) (.y .ok .ok))) (.x (.x (.y .ok .ok) (.y .ok .ok)) (.y (.x .ok (.y .ok .ok)) (.x .ok
  .ok)))) (.x (.x (.x (.y .ok (.y .ok .ok)) (.x .ok .ok)) (.x (.x .ok .ok) (.x .ok .ok))) (.x (.x (.x .ok .ok) (.x .ok .ok)) (.x (.y .ok .ok) (.y
  .ok .ok))))

def heIonRises : Cert :=
  .y (.x (.x (.x (.y .ok .ok) (.y .ok .ok)) (.x (.y .ok .ok) (.y (.x .ok .ok) .ok))) (.x (.y (.x (.y .ok .ok) (.y .ok .ok)) (.x .ok .ok)) (.y (.x
  (.y .ok .ok) (.y .ok .ok)) (.x .ok .ok)))) (.x (.x (.x (.y .ok .ok) (.y (.x .ok .ok) .ok)) (.x (.x (.y .ok .ok) (.y .ok .ok)) (.x .ok .ok))) (.x
  (.x (.y .ok .ok) (.y .ok .ok)) (.x (.y .ok .ok) (.y .ok .ok))))

def heIon : Cert :=
  .x (.y (.x (.x (.y (.x .ok .ok) (.x .ok .ok)) (.y (.x .ok .ok) (.x .ok .ok))) (.y (.x (.x .ok .ok) .ok) (.x (.x .ok .ok) .ok))) (.x (.x (.x (.y
  .ok .ok) (.y .ok .ok)) (.x (.y .ok .ok) (.y .ok .ok))) (.x (.x (.y .ok .ok) .ok) (.x .ok .ok)))) (.y (.x (.y (.x .ok .ok) .ok) (.y (.y .ok .ok)
  .ok)) (.x (.x .ok .ok) .ok))

def heCold : Cert :=
  .y (.x (.y (.x (.y .ok .ok) .ok) (.x .ok .ok)) (.y (.x .ok .ok) (.x .ok .ok))) (.x (.x (.x .ok .ok) (.x .ok .ok)) (.x (.y .ok .ok) (.y .ok .ok)))

def heHot : Cert :=
  .y (.x (.y (.x (.x .ok .ok) .ok) (.x .ok .ok)) (.y (.x .ok .ok) .ok)) (.x (.x (.y .ok .ok) .ok) (.x .ok .ok))

def heCost : Cert :=
  .y (.x (.y (.x (.x (.x (.y .ok .ok) (.y .ok .ok)) (.y (.x .ok .ok) (.x .ok .ok))) (.y (.x (.x .ok .ok) .ok) (.x (.x .ok .ok) .ok))) (.x (.x (.x
  (.x .ok .ok) (.x .ok .ok)) (.x (.x .ok .ok) (.x .ok .ok))) (.x (.x .ok .ok) .ok))) (.y (.x (.y (.x .ok .ok) .ok) (.y (.x .ok .ok) .ok)) (.x .ok
  .ok))) (.x (.x (.y (.x (.x (.y (.x .ok .ok) (.x (.y .ok .ok) (.y .ok .ok))) (.y (.x .ok .ok) (.x (.y .ok .ok) (.y .ok .ok)))) (.y (.x (.x .ok .ok)
  (.x .ok .ok)) (.x (.x (.y .ok .ok) (.y .ok .ok)) (.y .ok .ok)))) (.x (.y (.x (.y (.x .ok .ok) .ok) (.y (.x .ok .ok) .ok)) (.x (.x (.x (.y .ok (.x
  (.y .ok .ok) .ok)) (.y .ok (.x .ok .ok))) (.x (.y .ok .ok) (.y .ok .ok))) (.x (.y .ok (.x .ok .ok)) (.y .ok (.x .ok .ok))))) (.y (.x (.x .ok .ok)
  .ok) (.x (.x (.y .ok (.y .ok .ok)) (.y .ok (.y .ok .ok))) (.y .ok (.x (.y .ok .ok) (.y .ok .ok))))))) (.y (.x (.y (.x .ok .ok) (.x .ok .ok)) (.y
  .ok .ok)) (.x (.y (.x .ok .ok) (.y (.x .ok .ok) (.x (.y (.x .ok .ok) (.x .ok .ok)) (.y .ok .ok)))) (.y .ok (.y .ok (.y .ok (.x .ok .ok))))))) (.x
  (.y (.x .ok .ok) (.x (.y .ok (.y .ok .ok)) (.y .ok (.y .ok .ok)))) (.y .ok (.x (.y .ok .ok) (.y .ok .ok)))))

def heCheap : Cert :=
  .ok

def heStops : Cert :=
  .y (.x .ok (.x .ok .ok)) (.x (.x .ok (.x .ok .ok)) (.x (.x .ok .ok) (.x (.y .ok .ok) (.y .ok (.y .ok .ok)))))

def heHuge : Cert :=
  .ok

end Hermes.AmjuelCerts
