import Mathlib.Data.Nat.Notation
import Mathlib.Data.Int.Notation

/-!
# The coefficient tables of the cubic harmonics (`hexrd/powder/wppf/texture.py`)

Generated from the source: each decimal literal is written as a whole number of units `10⁻¹⁸`.
-/
namespace Hexrd.Texture

/-- `Blmn['th']` (texture.py:72-300): the rows of each degree. -/
def blmn_th : ℕ → Option (List (List ℤ))
  | 2 => some
    [[0, 1000000000000000000, 0]]
  | 4 => some
    [[456435464587638700, 0, 763762615825973700, 0, 456435464587638700]]
  | 6 => some
    [[-395284707521047440, 0, 586301969977928900, 0, 586301969977928700, 0, -395284707521047400],
     [0, 661437827766147600, 0, -353553390593273840, 0, 661437827766147700, 0]]
  | 8 => some
    [[411425367877739400, 0, 270030862433660870, 0, 718070330817252900, 0, 270030862433661000,
      0, 411425367877739400]]
  | 10 => some
    [[-321799073419417660, -302670512782563200, 87839832614806930, -254294094643181030,
      447897020573625400, 252360271181586050, 447897020573625240, -254294094643181150,
      87839832614807090, -302670512782562900, -321799073419417700],
     [249921950509362860, -389718031434617500, -68219905254034150, -327428638682698100,
      -347854628105769170, 324938650921200330, -347854628105769340, -327428638682698200,
      -68219905254033820, -389718031434617250, 249921950509363220]]
  | 12 => some
    [[-107746608508518980, 354405277693412070, 42183172840390366, -561702930007000900,
      -115640762365893320, 142944186068531070, -152919191714290250, 142944186068531100,
      -115640762365893400, -561702930007000700, 42183172840390734, 354405277693412460,
      -107746608508519010],
     [341100053749840100, 100287057531782940, -262043779955508800, -158946656844411170,
      427874451676772570, 40449318095341650, 435774215290464100, 40449318095341594,
      427874451676772700, -158946656844411280, -262043779955508700, 100287057531783000,
      341100053749839900],
     [197156914081402350, 20177055484030370, 561512087862538000, -31978957136462260,
      -95483369922390260, 8138120267834740, 520038952797539100, 8138120267834660,
      -95483369922390250, -31978957136462400, 561512087862538300, 20177055484030260,
      197156914081402320]]
  | 14 => some
    [[-289550625520198330, -297230447412251100, 10117717673205564, -244788874991831900,
      124657508465600590, -228116577973003220, 389998317659268070, 310210185265636200,
      389998317659268100, -228116577973003000, 124657508465600400, -244788874991831720,
      10117717673205809, -297230447412251000, -289550625520198500],
     [287726279340907170, -299115055354033700, -10053969858649543, -246340973916710500,
      -123872089857436040, -229562965172710210, -387541089533881000, 312177092033981750,
      -387541089533881200, -229562965172710350, -123872089857436220, -246340973916710300,
      -10053969858649592, -299115055354033930, 287726279340907330]]
  | 16 => some
    [[166189055731981670, -365443851044505600, -59213072462354854, 179543910474297190,
      -2851898776857607, 461054041029476500, 190214317142218180, -178050795899011740,
      212731057005994800, -178050795899012070, 190214317142218230, 461054041029476600,
      -2851898776857436, 179543910474297100, -59213072462355140, -365443851044505660,
      166189055731981620],
     [307961483299412860, 164167546598282300, -260962654049566150, -80656120509296210,
      -93713374381884330, -207118304354271730, 446002610566725850, 79985371895209050,
      305305250454509000, 79985371895209340, 446002610566725500, -207118304354271640,
      -93713374381884540, -80656120509296240, -260962654049566150, 164167546598282560,
      307961483299412900],
     [210280198191950820, 48390135902497860, 438158418876827200, -23774252059474720,
      296392758904735650, -61050330002940090, -76596225734596530, 23576541749095820,
      570778367599548700, 23576541749095760, -76596225734596260, -61050330002940060,
      296392758904735760, -23774252059474876, 438158418876827200, 48390135902498174,
      210280198191950900]]
  | _ => none

/-- `Blmn['oh']` (texture.py:301-404): the rows of each degree. -/
def blmn_oh : ℕ → Option (List (List ℤ))
  | 2 => some
    [[1000000000000000000]]
  | 4 => some
    [[-456435464587638200, -763762615825973400, -456435464587638600]]
  | 6 => some
    [[661437827766147900, -353553390593273900, 661437827766147600]]
  | 8 => some
    [[-411425367877739300, -270030862433660700, -718070330817253400, -270030862433660800,
      -411425367877739400]]
  | 10 => some
    [[-493446636763625900, -414578098794425030, 411425367877739800, -414578098794425140,
      -493446636763626050]]
  | 12 => some
    [[-408447581806201330, -41076872461514410, -341739547675011970, -655282145369954900,
      -341739547675011970, -41076872461514560, -408447581806201170],
     [0, 619721613346493400, -297960547396594200, 233086396627265350, -297960547396594170,
      619721613346493400, 0]]
  | 14 => some
    [[-421682054643464000, -347282980795201200, -323629924643874860, 440096461964117200,
      -323629924643874630, -347282980795201260, -421682054643464200]]
  | 16 => some
    [[408260749022862130, 4724991415765744, 80809786440900500, 374408987627958400,
      610882187761594100, 374408987627958300, 80809786440900400, 4724991415765709,
      408260749022861800],
     [0, -513388906432333900, -300181238273162700, 317466071979994400, -301789158461982200,
      317466071979994900, -300181238273162840, -513388906432333900, 0]]
  | _ => none

end Hexrd.Texture
