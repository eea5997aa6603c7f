import Verif.Token.Props
import Verif.Cpp.Props
import Verif.Align.Props
import Verif.NBest.Props
import Verif.Cache.Props
import Verif.Cache.KeyProps
import Verif.Cache.Lock
import Verif.Cache.Reader
import Verif.Cli.Props
import Verif.Wfst.Props
import Verif.ZhTn.Props
import Verif.ZhTn.PostProps
import Verif.ZhTn.StreamProps
import Verif.ZhItn.StreamProps
import Verif.ZhItn.NumberProps
import Verif.JaTn.PostProps
import Verif.JaTn.StreamProps
import Verif.JaItn.StreamProps
import Verif.EnItn.NumberProps
import Verif.EnItn.StreamProps
import Verif.EnItn.Groups
import Verif.EnItn.TextSpec
import Verif.EnItn.Split
import Verif.EnItn.Reading
import Verif.EnItn.Speak
import Verif.EnItn.Parts
import Verif.EnItn.TextProps
import Verif.EnTn.StreamProps
import Verif.EnTn.NumberProps
import Verif.ZhTn.PlainProps
import Verif.ZhItn.PlainProps
import Verif.JaTn.PlainProps
import Verif.JaItn.PlainProps
import Verif.ZhTn.RuntimeProps
import Verif.ZhItn.RuntimeProps
import Verif.JaTn.RuntimeProps
import Verif.JaItn.RuntimeProps
import Verif.JaTn.NumberProps
import Verif.JaTn.ClauseProps
import Verif.ZhTn.ClauseProps
import Verif.ZhItn.ClauseProps
import Verif.JaTn.TextProps
import Verif.ZhTn.NameProps
import Verif.ZhTn.TextProps
import Verif.JaItn.NumberProps
import Verif.Cpp.ApiProps
import Verif.Cpp.MainProps
import Verif.Cpp.AndroidProps
import Verif.Cpp.AndroidTexts
import Verif.JaItn.TextProps
import Verif.JaItn.TripProps
import Verif.ZhItn.TextProps
import Verif.ZhItn.TripProps
import Verif.ZhTn.CharsProps
import Verif.ZhItn.CharsProps
import Verif.JaTn.CharsProps
import Verif.JaItn.CharsProps
import Verif.EnItn.CharsProps
import Verif.EnTn.CharsProps
import Verif.EnTn.RomanProps
import Verif.EnTn.RomanRunProps
import Verif.EnTn.RomanNames
import Verif.Utils.LabelsProps
import Verif.Utils.PathsProps
