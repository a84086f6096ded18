import Verif.Model.Load
import Verif.Model.Save
import Verif.Model.Validate
import Verif.Model.Inspect
import Verif.Proofs.Sim
import Verif.Props.Termination
import Verif.Props.Doubles
import Verif.Props.RoundTrip41
import Verif.Props.Demo
import Verif.Props.Robust
import Verif.Props.RoundTrip22
import Verif.Props.Load22
import Verif.Props.Validate
import Verif.Props.Stable22
import Verif.Props.Demo22
import Verif.Props.Save
import Verif.Props.Reject
import Verif.Props.Names
import Verif.Props.NonFinite
import Verif.Props.Shape
import Verif.Props.Extension
import Verif.Props.Undefined
import Verif.Props.Undefined22b
import Verif.Props.UndefinedAll
import Verif.Props.Format
import Verif.Props.Numeral
import Verif.Props.Quoted
import Verif.Props.Inspect
import Verif.Props.Again
import Verif.Props.Cut
import Verif.Props.Stuck
import Verif.Props.Repeat
import Verif.Props.White
import Verif.Props.WhiteSplines
import Verif.Props.SaveEnds
import Verif.Props.Volume
import Verif.Props.Agree
import Verif.Props.Throws
import Verif.Props.Rejected
import Verif.Props.Order
import Verif.Props.SameFile
import Verif.Props.Endings
import Verif.Props.Spelling
import Verif.Props.Spelling22
import Verif.Props.Pieces
import Verif.Props.Pieces22
import Verif.Props.Device
import Verif.Props.Broken
import Verif.Props.Exhausted
import Verif.Props.Regroup
import Verif.Props.Warn
import Verif.Props.Python
import Verif.Props.PythonText
import Verif.Props.Complain
import Verif.Props.FormatMessage
