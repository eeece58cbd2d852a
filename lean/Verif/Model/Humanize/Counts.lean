import Verif.Go.Texts
import Verif.Model.Humanize.Locales
/-!
# The messages with arguments of the locales that come with the humanizer

A transcription of `django.po` in each directory of /repo/humanize/locale: the texts of the messages that are printed with an
argument.  The messages are those of /repo/humanize/date.go:72-115, 179-186, /repo/humanize/numbers.go:51-67, 117-141, 160 and
/repo/humanize/helper.go:74-89.
-/
namespace Verif.Model.Humanize
open Verif.Go

/-- The plural messages: context, singular and plural.  /repo/humanize/date.go:179-186, 99-115, 76-92; helper.go:74;
numbers.go:51-67. -/
def pluralMessages : List (Bytes × Bytes × Bytes) := [
  (b!"", b!"%[1]v year", b!"%[1]v years"),
  (b!"", b!"%[1]v month", b!"%[1]v months"),
  (b!"", b!"%[1]v week", b!"%[1]v weeks"),
  (b!"", b!"%[1]v day", b!"%[1]v days"),
  (b!"", b!"%[1]v hour", b!"%[1]v hours"),
  (b!"", b!"%[1]v minute", b!"%[1]v minutes"),
  (b!"naturaltime-past", b!"%[1]v year", b!"%[1]v years"),
  (b!"naturaltime-past", b!"%[1]v month", b!"%[1]v months"),
  (b!"naturaltime-past", b!"%[1]v week", b!"%[1]v weeks"),
  (b!"naturaltime-past", b!"%[1]v day", b!"%[1]v days"),
  (b!"naturaltime-past", b!"%[1]v hour", b!"%[1]v hours"),
  (b!"naturaltime-past", b!"%[1]v minute", b!"%[1]v minutes"),
  (b!"naturaltime-future", b!"%[1]v year", b!"%[1]v years"),
  (b!"naturaltime-future", b!"%[1]v month", b!"%[1]v months"),
  (b!"naturaltime-future", b!"%[1]v week", b!"%[1]v weeks"),
  (b!"naturaltime-future", b!"%[1]v day", b!"%[1]v days"),
  (b!"naturaltime-future", b!"%[1]v hour", b!"%[1]v hours"),
  (b!"naturaltime-future", b!"%[1]v minute", b!"%[1]v minutes"),
  (b!"", b!"a second ago", b!"%[1]v seconds ago"),
  (b!"", b!"a minute ago", b!"%[1]v minutes ago"),
  (b!"", b!"an hour ago", b!"%[1]v hours ago"),
  (b!"", b!"a second from now", b!"%[1]v seconds from now"),
  (b!"", b!"a minute from now", b!"%[1]v minutes from now"),
  (b!"", b!"an hour from now", b!"%[1]v hours from now"),
  (b!"", b!"%[1]d byte", b!"%[1]d bytes"),
  (b!"", b!"%[1]s million", b!"%[1]s million"),
  (b!"", b!"%[1]s billion", b!"%[1]s billion"),
  (b!"", b!"%[1]s trillion", b!"%[1]s trillion"),
  (b!"", b!"%[1]s quadrillion", b!"%[1]s quadrillion"),
  (b!"", b!"%[1]s quintillion", b!"%[1]s quintillion"),
  (b!"", b!"%[1]s sextillion", b!"%[1]s sextillion"),
  (b!"", b!"%[1]s septillion", b!"%[1]s septillion"),
  (b!"", b!"%[1]s octillion", b!"%[1]s octillion"),
  (b!"", b!"%[1]s nonillion", b!"%[1]s nonillion"),
  (b!"", b!"%[1]s decillion", b!"%[1]s decillion"),
  (b!"", b!"%[1]s googol", b!"%[1]s googol")]

/-- The messages without plural: context and text.  /repo/humanize/date.go:74, 94; helper.go:77-89; numbers.go:160, 117-141. -/
def singularMessages : List (Bytes × Bytes) := [
  (b!"", b!"%[1]v ago"),
  (b!"", b!"%[1]v from now"),
  (b!"", b!"%s KB"),
  (b!"", b!"%s MB"),
  (b!"", b!"%s GB"),
  (b!"", b!"%s TB"),
  (b!"", b!"%s PB"),
  (b!"ordinal 11, 12, 13", b!"%vth"),
  (b!"ordinal 0", b!"%vth"),
  (b!"ordinal 1", b!"%vst"),
  (b!"ordinal 2", b!"%vnd"),
  (b!"ordinal 3", b!"%vrd"),
  (b!"ordinal 4", b!"%vth"),
  (b!"ordinal 5", b!"%vth"),
  (b!"ordinal 6", b!"%vth"),
  (b!"ordinal 7", b!"%vth"),
  (b!"ordinal 8", b!"%vth"),
  (b!"ordinal 9", b!"%vth")]

/-- What a catalog has for them, in the same order: the texts `msgstr[0]`, `msgstr[1]` and so on of the plural messages and the
text `msgstr` of the others; nothing where the message is not in the file. -/
structure Counts where
  locale : Shipped
  plural : List (List Bytes)
  singular : List (Option Bytes)

/-- /repo/humanize/locale/af/django.po. -/
def counts_af : Counts where
  locale := loc_af
  plural := [
    [t!"%[1]v jaar", t!"%[1]v jaar"],
    [t!"%[1]v maand", t!"%[1]v maande"],
    [t!"%[1]v week", t!"%[1]v weke"],
    [t!"%[1]v dag", t!"%[1]v dae"],
    [t!"%[1]v uur", t!"%[1]v uur"],
    [t!"%[1]v minuut", t!"%[1]v minute"],
    [t!"%[1]v jaar", t!"%[1]v jaar"],
    [t!"%[1]v maand", t!"%[1]v maande"],
    [t!"%[1]v week", t!"%[1]v weke"],
    [t!"%[1]v dag", t!"%[1]v dae"],
    [t!"%[1]v uur", t!"%[1]v uur"],
    [t!"%[1]v minuut", t!"%[1]v minute"],
    [t!"%[1]v jaar", t!"%[1]v jaar"],
    [t!"%[1]v maand", t!"%[1]v maande"],
    [t!"%[1]v week", t!"%[1]v weke"],
    [t!"%[1]v dag", t!"%[1]v dae"],
    [t!"%[1]v uur", t!"%[1]v uur"],
    [t!"%[1]v minuut", t!"%[1]v minute"],
    [t!"’n sekonde gelede", t!"%[1]v sekondes gelede"],
    [t!"’n minuut gelede", t!"%[1]v minute gelede"],
    [t!"’n uur gelede", t!"%[1]v uur gelede"],
    [t!"oor ’n sekonde", t!"oor %[1]v sekondes"],
    [t!"oor ’n minuut", t!"oor %[1]v minute"],
    [t!"oor ’n uur", t!"oor %[1]v ure"],
    [t!"%[1]d greep", t!"%[1]d grepe"],
    [t!"%[1]s miljoen", t!"%[1]s miljoen"],
    [t!"%[1]s miljard", t!"%[1]s miljard"],
    [t!"%[1]s biljoen", t!"%[1]s biljoen"],
    [t!"%[1]s biljard", t!"%[1]s biljard"],
    [t!"%[1]s triljoen", t!"%[1]s triljoen"],
    [t!"%[1]s triljard", t!"%[1]s triljard"],
    [t!"%[1]s kwadriljoen", t!"%[1]s kwadriljoen"],
    [t!"%[1]s kwadriljard", t!"%[1]s kwadriljard"],
    [t!"%[1]s kwintiljoen", t!"%[1]s kwintiljoen"],
    [t!"%[1]s kwinteljard", t!"%[1]s kwinteljard"],
    [t!"", t!""]]
  singular := [
    some t!"%[1]v gelede", some t!"oor %[1]v", some t!"%s KB", some t!"%s MB", some t!"%s GB", some t!"%s TB", some t!"%s PB", some t!"%vde", some t!"%vste", some t!"%vste", some t!"%vste", some t!"%vste", some t!"%vste", some t!"%vste", some t!"%vste", some t!"%vste", some t!"%vste", some t!"%vste"]

/-- /repo/humanize/locale/ar/django.po. -/
def counts_ar : Counts where
  locale := loc_ar
  plural := [
    [t!"%[1]v سنة", t!"%[1]v سنة", t!"%[1]v سنتين", t!"%[1]v سنوات", t!"%[1]v سنوات", t!"%[1]v سنوات"],
    [t!"%[1]v شهر", t!"%[1]v شهر", t!"%[1]v شهرين", t!"%[1]v أشهر", t!"%[1]v أشهر", t!"%[1]v أشهر"],
    [t!"%[1]v أسبوع", t!"%[1]v أسبوع", t!"%[1]v أسبوعين", t!"%[1]v أسابيع", t!"%[1]v أسابيع", t!"%[1]v أسابيع"],
    [t!"%[1]v يوم", t!"%[1]v يوم", t!"%[1]v يومين", t!"%[1]v أيام", t!"%[1]v يوم", t!"%[1]v أيام"],
    [t!"%[1]v ساعة", t!"%[1]v ساعة", t!"%[1]v ساعتين", t!"%[1]v ساعات", t!"%[1]v ساعة", t!"%[1]v ساعات"],
    [t!"%[1]v دقيقة", t!"%[1]v دقيقة", t!"%[1]v دقيقتين", t!"%[1]v دقائق", t!"%[1]v دقيقة", t!"%[1]v دقيقة"],
    [t!"%[1]v سنة", t!"%[1]v سنة", t!"%[1]v سنتين", t!"%[1]v سنوات", t!"%[1]v سنوات", t!"%[1]v سنوات"],
    [t!"%[1]v شهر", t!"%[1]v شهر", t!"%[1]v شهرين", t!"%[1]v أشهر", t!"%[1]v أشهر", t!"%[1]v أشهر"],
    [t!"%[1]v أسبوع", t!"%[1]v أسبوع", t!"%[1]v أسبوعين", t!"%[1]v أسابيع", t!"%[1]v أسبوع", t!"%[1]v أسابيع"],
    [t!"%[1]v يوم", t!"%[1]v يوم", t!"%[1]v يومين", t!"%[1]v أيام", t!"%[1]v يوم", t!"%[1]v أيام"],
    [t!"%[1]v ساعة", t!"%[1]v ساعة", t!"%[1]v ساعتين", t!"%[1]v ساعات", t!"%[1]v ساعة", t!"%[1]v ساعات"],
    [t!"%[1]v دقيقة", t!"%[1]v دقيقة", t!"%[1]v دقيقتين", t!"%[1]v دقائق", t!"%[1]v دقيقة", t!"%[1]v دقيقة"],
    [t!"%[1]v سنة", t!"%[1]v سنة", t!"%[1]v سنتين", t!"%[1]v سنوات", t!"%[1]v سنة", t!"%[1]v سنوات"],
    [t!"%[1]v شهر", t!"%[1]v شهر", t!"%[1]v شهرين", t!"%[1]v أشهر", t!"%[1]v شهر", t!"%[1]v أشهر"],
    [t!"%[1]v أسبوع", t!"%[1]v أسبوع", t!"%[1]v أسبوعين", t!"%[1]v أسابيع", t!"%[1]v أسبوع", t!"%[1]v أسابيع"],
    [t!"%[1]v يوم", t!"%[1]v يوم", t!"%[1]v يومين", t!"%[1]v أيام", t!"%[1]v يوم", t!"%[1]v أيام"],
    [t!"%[1]v ساعة", t!"%[1]v ساعة", t!"%[1]v ساعتين", t!"%[1]v ساعات", t!"%[1]v ساعة", t!"%[1]v ساعات"],
    [t!"%[1]v دقيقة", t!"%[1]v دقيقة", t!"%[1]v دقيقتين", t!"%[1]v دقائق", t!"%[1]v دقيقة", t!"%[1]v دقيقة"],
    [t!"منذ %[1]v ثانية", t!"منذ ثانية", t!"منذ %[1]v ثانيتين", t!"منذ %[1]v ثواني", t!"منذ %[1]v ثانية", t!"منذ %[1]v ثانية"],
    [t!"منذ %[1]v دقيقة", t!"منذ دقيقة", t!"منذ %[1]v دقيقة", t!"منذ %[1]v دقيقة", t!"منذ %[1]v دقيقة", t!"منذ %[1]v دقيقة"],
    [t!"منذ %[1]v ساعة", t!"منذ ساعة", t!"منذ %[1]v ساعة", t!"منذ %[1]v ساعة", t!"منذ %[1]v ساعة", t!"منذ %[1]v ساعة"],
    [t!"%[1]v ثواني من الآن", t!"منذ ثانية من الآن", t!"%[1]v ثواني من الآن", t!"%[1]v ثواني من الآن", t!"%[1]v ثواني من الآن", t!"%[1]v ثواني من الآن"],
    [t!"%[1]v دقائق من الآن", t!"منذ دقيقة من الآن", t!"%[1]v دقائق من الآن", t!"%[1]v دقائق من الآن", t!"%[1]v دقائق من الآن", t!"%[1]v دقائق من الآن"],
    [t!"%[1]v ساعات من الآن", t!"منذ ساعة من الآن", t!"%[1]v ساعات من الآن", t!"%[1]v ساعات من الآن", t!"%[1]v ساعات من الآن", t!"%[1]v ساعات من الآن"],
    [t!"%[1]d بايت", t!"بايت واحد", t!"بايتان", t!"%[1]d بايتان", t!"%[1]d بايت", t!"%[1]d بايت"],
    [t!"%[1]s مليون", t!"%[1]s مليون", t!"%[1]s مليون", t!"%[1]s ملايين", t!"%[1]s مليون", t!"%[1]s مليون"],
    [t!"%[1]s مليار", t!"%[1]s مليار", t!"%[1]s مليار", t!"%[1]s مليار", t!"%[1]s مليار", t!"%[1]s مليار"],
    [t!"%[1]s ترليون", t!"%[1]s ترليون", t!"%[1]s ترليون", t!"%[1]s ترليون", t!"%[1]s ترليون", t!"%[1]s ترليون"],
    [t!"%[1]s كوادرليون", t!"%[1]s كوادرليون", t!"%[1]s كوادرليون", t!"%[1]s كوادرليون", t!"%[1]s كوادرليون", t!"%[1]s كوادرليون"],
    [t!"%[1]s كوينتيليون", t!"%[1]s كوينتيليون", t!"%[1]s كوينتيليون", t!"%[1]s كوينتيليون", t!"%[1]s كوينتيليون", t!"%[1]s كوينتيليون"],
    [t!"%[1]s سكستيليون", t!"%[1]s سكستيليون", t!"%[1]s سكستيليون", t!"%[1]s سكستيليون", t!"%[1]s سكستيليون", t!"%[1]s سكستيليون"],
    [t!"%[1]s سبتيليون", t!"%[1]s سبتيليون", t!"%[1]s سبتيليون", t!"%[1]s سبتيليون", t!"%[1]s سبتيليون", t!"%[1]s سبتيليون"],
    [t!"%[1]s أقتيليون", t!"%[1]s أقتيليون", t!"%[1]s أقتيليون", t!"%[1]s أقتيليون", t!"%[1]s أقتيليون", t!"%[1]s أقتيليون"],
    [t!"%[1]s نانليون", t!"%[1]s نانليون", t!"%[1]s نانليون", t!"%[1]s نانليون", t!"%[1]s نانليون", t!"%[1]s نانليون"],
    [t!"%[1]s ديسيليون", t!"%[1]s ديسيليون", t!"%[1]s ديسيليون", t!"%[1]s ديسيليون", t!"%[1]s ديسيليون", t!"%[1]s ديسيليون"],
    [t!"%[1]s جوجول", t!"%[1]s جوجول", t!"%[1]s جوجول", t!"%[1]s جوجول", t!"%[1]s جوجول", t!"%[1]s جوجول"]]
  singular := [
    some t!"%[1]v مضت", some t!"%[1]v من الآن", some t!"%s ك.ب", some t!"%s م.ب", some t!"%s ج.ب", some t!"%s ت.ب", some t!"%s ب.ب", some t!"%v", some t!"%v", some t!"%v", some t!"%v", some t!"%v", some t!"%v", some t!"%v", some t!"%v", some t!"%v", some t!"%v", some t!"%v"]

/-- /repo/humanize/locale/arDZ/django.po. -/
def counts_arDZ : Counts where
  locale := loc_arDZ
  plural := [
    [t!"", t!"", t!"", t!"", t!"", t!""],
    [t!"", t!"", t!"", t!"", t!"", t!""],
    [t!"", t!"", t!"", t!"", t!"", t!""],
    [t!"", t!"", t!"", t!"", t!"", t!""],
    [t!"", t!"", t!"", t!"", t!"", t!""],
    [t!"", t!"", t!"", t!"", t!"", t!""],
    [],
    [],
    [],
    [],
    [],
    [],
    [],
    [],
    [],
    [],
    [],
    [],
    [t!"منذ %[1]v ثانية", t!"منذ ثانية", t!"منذ %[1]v ثانيتين", t!"منذ %[1]v ثواني", t!"منذ %[1]v ثانية", t!"منذ %[1]v ثانية"],
    [t!"منذ %[1]v دقيقة", t!"منذ دقيقة", t!"منذ %[1]v دقيقة", t!"منذ %[1]v دقيقة", t!"منذ %[1]v دقيقة", t!"منذ %[1]v دقيقة"],
    [t!"منذ %[1]v ساعة", t!"منذ ساعة", t!"منذ %[1]v ساعة", t!"منذ %[1]v ساعة", t!"منذ %[1]v ساعة", t!"منذ %[1]v ساعة"],
    [t!"%[1]v ثواني من الآن", t!"منذ ثانية من الآن", t!"%[1]v ثواني من الآن", t!"%[1]v ثواني من الآن", t!"%[1]v ثواني من الآن", t!"%[1]v ثواني من الآن"],
    [t!"%[1]v دقائق من الآن", t!"منذ دقيقة من الآن", t!"%[1]v دقائق من الآن", t!"%[1]v دقائق من الآن", t!"%[1]v دقائق من الآن", t!"%[1]v دقائق من الآن"],
    [t!"%[1]v ساعات من الآن", t!"منذ ساعة من الآن", t!"%[1]v ساعات من الآن", t!"%[1]v ساعات من الآن", t!"%[1]v ساعات من الآن", t!"%[1]v ساعات من الآن"],
    [t!"%[1]d بايت", t!"%[1]d بايت واحد ", t!"%[1]d بايتان", t!"%[1]d بايت", t!"%[1]d بايت", t!"%[1]d بايت"],
    [t!"%[1]s مليون", t!"%[1]s مليون", t!"%[1]s مليون", t!"%[1]s ملايين", t!"%[1]s مليون", t!"%[1]s مليون"],
    [t!"%[1]s مليار", t!"%[1]s مليار", t!"%[1]s مليار", t!"%[1]s مليار", t!"%[1]s مليار", t!"%[1]s مليار"],
    [t!"%[1]s ترليون", t!"%[1]s ترليون", t!"%[1]s ترليون", t!"%[1]s ترليون", t!"%[1]s ترليون", t!"%[1]s ترليون"],
    [t!"%[1]s كوادرليون", t!"%[1]s كوادرليون", t!"%[1]s كوادرليون", t!"%[1]s كوادرليون", t!"%[1]s كوادرليون", t!"%[1]s كوادرليون"],
    [t!"%[1]s كوينتيليون", t!"%[1]s كوينتيليون", t!"%[1]s كوينتيليون", t!"%[1]s كوينتيليون", t!"%[1]s كوينتيليون", t!"%[1]s كوينتيليون"],
    [t!"%[1]s سكستيليون", t!"%[1]s سكستيليون", t!"%[1]s سكستيليون", t!"%[1]s سكستيليون", t!"%[1]s سكستيليون", t!"%[1]s سكستيليون"],
    [t!"%[1]s سبتيليون", t!"%[1]s سبتيليون", t!"%[1]s سبتيليون", t!"%[1]s سبتيليون", t!"%[1]s سبتيليون", t!"%[1]s سبتيليون"],
    [t!"%[1]s أقتيليون", t!"%[1]s أقتيليون", t!"%[1]s أقتيليون", t!"%[1]s أقتيليون", t!"%[1]s أقتيليون", t!"%[1]s أقتيليون"],
    [t!"%[1]s نانليون", t!"%[1]s نانليون", t!"%[1]s نانليون", t!"%[1]s نانليون", t!"%[1]s نانليون", t!"%[1]s نانليون"],
    [t!"%[1]s ديسيليون", t!"%[1]s ديسيليون", t!"%[1]s ديسيليون", t!"%[1]s ديسيليون", t!"%[1]s ديسيليون", t!"%[1]s ديسيليون"],
    [t!"%[1]s جوجول", t!"%[1]s جوجول", t!"%[1]s جوجول", t!"%[1]s جوجول", t!"%[1]s جوجول", t!"%[1]s جوجول"]]
  singular := [
    some t!"%[1]v مضت", some t!"%[1]v من الآن", some t!"%s ك.ب", some t!"%s م.ب", some t!"%s ج.ب", some t!"%s ت.ب", some t!"%s ب.ب", some t!"", some t!"", some t!"", some t!"", some t!"", some t!"", some t!"", some t!"", some t!"", some t!"", some t!""]

/-- /repo/humanize/locale/ast/django.po. -/
def counts_ast : Counts where
  locale := loc_ast
  plural := [
    [],
    [],
    [],
    [],
    [],
    [],
    [],
    [],
    [],
    [],
    [],
    [],
    [],
    [],
    [],
    [],
    [],
    [],
    [t!"", t!""],
    [t!"", t!""],
    [t!"", t!""],
    [t!"", t!""],
    [t!"", t!""],
    [t!"", t!""],
    [t!"%[1]d byte", t!"%[1]d bytes"],
    [t!"%[1]s millón", t!"%[1]s millones"],
    [t!"%[1]s billón", t!"%[1]s billones"],
    [t!"%[1]s trillón", t!"%[1]s trillones"],
    [t!"%[1]s cuatrillón", t!"%[1]s cuatrillones"],
    [t!"%[1]s quintillón", t!"%[1]s quintillones"],
    [t!"%[1]s sextillón", t!"%[1]s sextillones"],
    [t!"%[1]s septillón", t!"%[1]s septillones"],
    [t!"%[1]s octillón", t!"%[1]s octillones"],
    [t!"%[1]s nonillón", t!"%[1]s nonillones"],
    [t!"%[1]s decillón", t!"%[1]s decillones"],
    [t!"%[1]s gúgol", t!"%[1]s gúgol"]]
  singular := [
    none, none, some t!"%s KB", some t!"%s MB", some t!"%s GB", some t!"%s TB", some t!"%s PB", none, none, none, none, none, none, none, none, none, none, none]

/-- /repo/humanize/locale/az/django.po. -/
def counts_az : Counts where
  locale := loc_az
  plural := [
    [t!"%[1]v il", t!"%[1]v il"],
    [t!"%[1]v ay", t!"%[1]v ay"],
    [t!"%[1]v həftə", t!"%[1]v həftə"],
    [t!"%[1]v gün", t!"%[1]v gün"],
    [t!"%[1]v saat", t!"%[1]v saat"],
    [t!"%[1]v dəqiqə", t!"%[1]v dəqiqə"],
    [t!"%[1]v il", t!"%[1]v il"],
    [t!"%[1]v ay", t!"%[1]v ay"],
    [t!"%[1]v həftə", t!"%[1]v həftə"],
    [t!"%[1]v gün", t!"%[1]v gün"],
    [t!"%[1]v saat", t!"%[1]v saat"],
    [t!"%[1]v dəqiqə", t!"%[1]v dəqiqə"],
    [t!"%[1]v il", t!"%[1]v il"],
    [t!"%[1]v ay", t!"%[1]v ay"],
    [t!"%[1]v həftə", t!"%[1]v həftə"],
    [t!"%[1]v gün", t!"%[1]v gün"],
    [t!"%[1]v saat", t!"%[1]v saat"],
    [t!"%[1]v dəqiqə", t!"%[1]v dəqiqə"],
    [t!"bir saniyə əvvəl", t!"%[1]v saniyə əvvəl"],
    [t!"bir dəqiqə əvvəl", t!"%[1]v dəqiqə əvvəl"],
    [t!"bir saat əvvəl", t!"%[1]v saat əvvəl"],
    [t!"bir saniyə sonra", t!"%[1]v saniyə sonra"],
    [t!"bir dəqiqə sonra", t!"%[1]v dəqiqə sonra"],
    [t!"bir saat sonra", t!"%[1]v saat sonra"],
    [t!"%[1]d bayt", t!"%[1]d bayt"],
    [t!"%[1]s milyon", t!"%[1]s milyon"],
    [t!"%[1]s milyard", t!"%[1]s milyard"],
    [t!"%[1]s trilyon", t!"%[1]s trilyon"],
    [t!"%[1]s kvadrilyon", t!"%[1]s kvadrilyon"],
    [t!"%[1]s kvintilyon", t!"%[1]s kvintilyon"],
    [t!"%[1]s sekstilyon", t!"%[1]s sekstilyon"],
    [t!"%[1]s septilyon", t!"%[1]s septilyon"],
    [t!"%[1]s oktilyon", t!"%[1]s oktilyon"],
    [t!"%[1]s nonilyon", t!"%[1]s nonilyon"],
    [t!"%[1]s deçilyon", t!"%[1]s deçilyon"],
    [t!"%[1]s quqol", t!"%[1]s quqol"]]
  singular := [
    some t!"%[1]v əvvəl", some t!"%[1]v bundan sonra", some t!"%s KB", some t!"%s MB", some t!"%s QB", some t!"%s TB", some t!"%s PB", some t!"%v.", some t!"%v.", some t!"%v.", some t!"%v.", some t!"%v.", some t!"%v.", some t!"%v.", some t!"%v.", some t!"%v.", some t!"%v.", some t!"%v."]

/-- /repo/humanize/locale/be/django.po. -/
def counts_be : Counts where
  locale := loc_be
  plural := [
    [t!"%[1]v год", t!"%[1]v гадоў", t!"%[1]v гадоў", t!"%[1]v гадоў"],
    [t!"%[1]v месяц", t!"%[1]v месяцаў", t!"%[1]v месяцаў", t!"%[1]v месяцаў"],
    [t!"%[1]v тыдзень", t!"%[1]v тыдняў", t!"%[1]v тыдняў", t!"%[1]v тыдняў"],
    [t!"%[1]v дзень", t!"%[1]v  дзён", t!"%[1]v  дзён", t!"%[1]v дзён"],
    [t!"%[1]v гадзіна", t!"%[1]v гадзін", t!"%[1]v гадзін", t!"%[1]v гадзін"],
    [t!"%[1]v хвіліна", t!"%[1]v хвілін", t!"%[1]v хвілін", t!"%[1]v хвілін"],
    [t!"%[1]v год", t!"%[1]v гадоў", t!"%[1]v гадоў", t!"%[1]v гадоў"],
    [t!"%[1]v месяц", t!"%[1]v месяцаў", t!"%[1]v месяцаў", t!"%[1]v месяцаў"],
    [t!"%[1]v тыдзень", t!"%[1]v тыдняў", t!"%[1]v тыдняў", t!"%[1]v тыдняў"],
    [t!"%[1]v дзень", t!"%[1]v дзён", t!"%[1]v дзён", t!"%[1]v дзён"],
    [t!"%[1]v гадзіна", t!"%[1]v гадзін", t!"%[1]v гадзін", t!"%[1]v гадзін"],
    [t!"%[1]v хвіліна", t!"%[1]v хвілін", t!"%[1]v хвілін", t!"%[1]v хвілін"],
    [t!"%[1]v год", t!"%[1]v гадоў", t!"%[1]v гадоў", t!"%[1]v гадоў"],
    [t!"%[1]v месяц", t!"%[1]v месяцаў", t!"%[1]v месяцаў", t!"%[1]v месяцаў"],
    [t!"%[1]v тыдзень", t!"%[1]v тыдняў", t!"%[1]v тыдняў", t!"%[1]v тыдняў"],
    [t!"%[1]v дзень", t!"%[1]v дзён", t!"%[1]v дзён", t!"%[1]v дзён"],
    [t!"%[1]v гадзіна", t!"%[1]v гадзін", t!"%[1]v гадзін", t!"%[1]v гадзін"],
    [t!"%[1]v хвіліна", t!"%[1]v хвілін", t!"%[1]v хвілін", t!"%[1]v хвілін"],
    [t!"%[1]v сэкунду таму", t!"%[1]v сэкунды таму", t!"%[1]v сэкундаў таму", t!"%[1]v сэкундаў таму"],
    [t!"%[1]v хвіліну таму", t!"%[1]v хвіліны таму", t!"%[1]v хвілінаў таму", t!"%[1]v хвілінаў таму"],
    [t!"%[1]v гадзіну таму", t!"%[1]v гадзіны таму", t!"%[1]v гадзінаў таму", t!"%[1]v гадзінаў таму"],
    [t!"праз %[1]v сэкунду", t!"праз %[1]v сэкунды", t!"праз %[1]v сэкундаў", t!"праз %[1]v сэкундаў"],
    [t!"праз %[1]v хвіліну", t!"праз %[1]v хвіліны", t!"праз %[1]v хвілінаў", t!"праз %[1]v хвілінаў"],
    [t!"праз %[1]v гадзіну", t!"праз %[1]v гадзіны", t!"праз %[1]v гадзінаў", t!"праз %[1]v гадзінаў"],
    [t!"%[1]d байт", t!"%[1]d байты", t!"%[1]d байтаў", t!"%[1]d байтаў"],
    [t!"%[1]s мільён", t!"%[1]s мільёны", t!"%[1]s мільёнаў", t!"%[1]s мільёнаў"],
    [t!"%(value).s мільярд", t!"%[1]s мільярды", t!"%[1]s мільярдаў", t!"%[1]s мільярдаў"],
    [t!"%[1]s трыльён", t!"%[1]s трыльёны", t!"%[1]s трыльёнаў", t!"%[1]s трыльёнаў"],
    [t!"%[1]s квадрыльён", t!"%[1]s квадрыльёны", t!"%[1]s квадрыльёнаў", t!"%[1]s квадрыльёнаў"],
    [t!"%[1]s квінтыльён", t!"%[1]s квінтыльёны", t!"%[1]s квінтыльёнаў", t!"%[1]s квінтыльёнаў"],
    [t!"%[1]s сэкстыльён", t!"%[1]s сэкстыльёны", t!"%[1]s сэкстыльёнаў", t!"%[1]s сэкстыльёнаў"],
    [t!"%[1]s сэптыльён", t!"%[1]s сэптыльёны", t!"%[1]s сэптыльёнаў", t!"%[1]s сэптыльёнаў"],
    [t!"%[1]s актыльён", t!"%[1]s актыльёны", t!"%[1]s актыльёнаў", t!"%[1]s актыльёнаў"],
    [t!"%[1]s нанільён", t!"%[1]s нанільёны", t!"%[1]s нанільёнаў", t!"%[1]s нанільёнаў"],
    [t!"%[1]s дэцыльён", t!"%[1]s дэцыльёны", t!"%[1]s дэцыльёнаў", t!"%[1]s дэцыльёнаў"],
    [t!"%[1]s ґуґал", t!"%[1]s ґуґлы", t!"%[1]s ґуґлаў", t!"%[1]s ґуґлаў"]]
  singular := [
    some t!"%[1]v таму", some t!"праз %[1]v", some t!"%s КБ", some t!"%s МБ", some t!"%s ҐБ", some t!"%s ТБ", some t!"%s ПБ", some t!"%vы", some t!"%vы", some t!"%vы", some t!"%vі", some t!"%vі", some t!"%vы", some t!"%vы", some t!"%vы", some t!"%vы", some t!"%vы", some t!"%vы"]

/-- /repo/humanize/locale/bg/django.po. -/
def counts_bg : Counts where
  locale := loc_bg
  plural := [
    [t!"%[1]v година", t!"%[1]v години"],
    [t!"%[1]v месец", t!"%[1]v месеца"],
    [t!"%[1]v седмица", t!"%[1]v седмици"],
    [t!"%[1]v ден", t!"%[1]v дни"],
    [t!"%[1]v час", t!"%[1]v часа"],
    [t!"%[1]v минута", t!"%[1]v минути"],
    [t!"%[1]v година", t!"%[1]v години"],
    [t!"%[1]v месец", t!"%[1]v месеца"],
    [t!"%[1]v седмица", t!"%[1]v седмици"],
    [t!"%[1]v ден", t!"%[1]v дни"],
    [t!"%[1]v час", t!"%[1]v часа"],
    [t!"%[1]v минута", t!"%[1]v минути"],
    [t!"%[1]v година", t!"%[1]v години"],
    [t!"%[1]v месец", t!"%[1]v месеца"],
    [t!"%[1]v седмица", t!"%[1]v седмици"],
    [t!"%[1]v ден", t!"%[1]v дни"],
    [t!"%[1]v час", t!"%[1]v часа"],
    [t!"%[1]v минута", t!"%[1]v минути"],
    [t!"преди секунда", t!"преди %[1]v секунди"],
    [t!"преди минута", t!"преди %[1]v минути"],
    [t!"преди един час", t!"преди %[1]v часа"],
    [t!"след секунда", t!"след %[1]v секунди"],
    [t!"след минута", t!"след %[1]v минути"],
    [t!"след един час", t!"след %[1]v часа"],
    [t!"%[1]d, байт", t!"%[1]d байта"],
    [t!"%[1]s милион", t!"%[1]s милиона"],
    [t!"%[1]s милиард", t!"%[1]s милиарда"],
    [t!"%[1]s трилион", t!"%[1]s трилиона"],
    [t!"%[1]s квадрилион", t!"%[1]s квадрилиона"],
    [t!"%[1]s квинтилион", t!"%[1]s квинтилиона"],
    [t!"%[1]s секстилион", t!"%[1]s секстилиона"],
    [t!"%[1]s септилион", t!"%[1]s септилиона"],
    [t!"%[1]s октилион", t!"%[1]s октилиона"],
    [t!"%[1]s нонилион", t!"%[1]s нонилиона"],
    [t!"%[1]s децилион", t!"%[1]s децилиона"],
    [t!"%[1]s гугол", t!"%[1]s гугола"]]
  singular := [
    some t!"преди %[1]v", some t!"след %[1]v", some t!"%s KБ", some t!"%s МБ", some t!"%s ГБ", some t!"%s ТБ", some t!"%s ПБ", some t!"%vти", some t!"%vен", some t!"%vви", some t!"%vри", some t!"%vти", some t!"%vти", some t!"%vти", some t!"%vти", some t!"%vми", some t!"%vми", some t!"%vти"]

/-- /repo/humanize/locale/bn/django.po. -/
def counts_bn : Counts where
  locale := loc_bn
  plural := [
    [],
    [],
    [],
    [],
    [],
    [],
    [],
    [],
    [],
    [],
    [],
    [],
    [],
    [],
    [],
    [],
    [],
    [],
    [t!"এক সেকেন্ড আগে", t!"%[1]v সেকেন্ড আগে"],
    [t!"এক মিনিট আগে", t!"%[1]v মিনিট আগে"],
    [t!"এক ঘন্টা আগে", t!"%[1]v  ঘন্টা আগে"],
    [t!"এখন থেকে এক সেকেন্ড পরে", t!"এখন থেকে %[1]v সেকেন্ড পরে"],
    [t!"এখন থেকে এক মিনিট পরে", t!"এখন থেকে %[1]v মিনিট পরে"],
    [t!"এখন থেকে এক ঘন্টা পরে", t!"এখন থেকে %[1]v ঘন্টা পরে"],
    [t!"%[1]d বাইট", t!"%[1]d বাইট"],
    [t!"%[1]s মিলিয়ন", t!"%[1]s মিলিয়ন"],
    [t!"%[1]s বিলিয়ন", t!"%[1]s বিলিয়ন"],
    [t!"%[1]s ট্রিলিয়ন", t!"%[1]s ট্রিলিয়ন"],
    [t!"%[1]s কোয়াড্রিলিয়ন", t!"%[1]s কোয়াড্রিলিয়ন"],
    [t!"%[1]s কুইন্টিলিয়ন", t!"%[1]s কুইন্টিলিয়ন"],
    [t!"%[1]s সেক্সটিলিয়ন", t!"%[1]s সেক্সটিলিয়ন"],
    [t!"%[1]s সেপ্টিলিয়ন", t!"%[1]s সেপ্টিলিয়ন"],
    [t!"%[1]s অক্টিলিয়ন", t!"%[1]s অক্টিলিয়ন"],
    [t!"%[1]s ননিলিয়ন", t!"%[1]s ননিলিয়ন"],
    [t!"%[1]s ডেসিলিয়ন", t!"%[1]s ডেসিলিয়ন"],
    [t!"%[1]s গোগোল", t!"%[1]s গোগোল"]]
  singular := [
    none, none, some t!"%s কিলোবাইট", some t!"%s মেগাবাইট", some t!"%s গিগাবাইট", some t!"%s টেরাবাইট", some t!"%s পেটাবাইট", none, none, none, none, none, none, none, none, none, none, none]

/-- /repo/humanize/locale/br/django.po. -/
def counts_br : Counts where
  locale := loc_br
  plural := [
    [t!"", t!"", t!"", t!"", t!""],
    [t!"", t!"", t!"", t!"", t!""],
    [t!"", t!"", t!"", t!"", t!""],
    [t!"", t!"", t!"", t!"", t!""],
    [t!"", t!"", t!"", t!"", t!""],
    [t!"", t!"", t!"", t!"", t!""],
    [],
    [],
    [],
    [],
    [],
    [],
    [],
    [],
    [],
    [],
    [],
    [],
    [t!"%[1]v eilenn zo", t!"%[1]v eilenn zo", t!"%[1]v eilenn zo", t!"%[1]v eilenn zo", t!"%[1]v eilenn zo"],
    [t!"%[1]v munud zo", t!"%[1]v munud zo", t!"%[1]v munud zo", t!"%[1]v munud zo", t!"%[1]v munud zo"],
    [t!"%[1]v eurvezh zo", t!"%[1]v eurvezh zo", t!"%[1]v eurvezh zo", t!"%[1]v eurvezh zo", t!"%[1]v eurvezh zo"],
    [t!"a-benn %[1]v eilenn", t!"a-benn %[1]v eilenn", t!"a-benn %[1]v eilenn", t!"a-benn %[1]v eilenn", t!"a-benn %[1]v eilenn"],
    [t!"a-benn %[1]v munud", t!"a-benn %[1]v munud", t!"a-benn %[1]v munud", t!"a-benn %[1]v munud", t!"a-benn %[1]v munud"],
    [t!"a-benn %[1]v eurvezh", t!"a-benn %[1]v eurvezh", t!"a-benn %[1]v eurvezh", t!"a-benn %[1]v eurvezh", t!"a-benn %[1]v eurvezh"],
    [t!"%[1]d okted", t!"%[1]d okted", t!"%[1]d okted", t!"%[1]d okted", t!"%[1]d okted"],
    [t!"%[1]s million", t!"%[1]s million", t!"%[1]s million", t!"%[1]s million", t!"%[1]s million"],
    [t!"%[1]s miliard", t!"%[1]s miliard", t!"%[1]s miliard", t!"%[1]s miliard", t!"%[1]s miliard"],
    [t!"%[1]s bilion", t!"%[1]s bilion", t!"%[1]s bilion", t!"%[1]s bilion", t!"%[1]s bilion"],
    [t!"%[1]s c'hadrilion", t!"%[1]s kadrilion", t!"%[1]s kadrilion", t!"%[1]s kadrilion", t!"%[1]s kadrilion"],
    [t!"%[1]s c'hintilion", t!"%[1]s kintilion", t!"%[1]s kintilion", t!"%[1]s kintilion", t!"%[1]s kintilion"],
    [t!"%[1]s sekstilion", t!"%[1]s sekstilion", t!"%[1]s sekstilion", t!"%[1]s sekstilion", t!"%[1]s sekstilion"],
    [t!"%[1]s septilion", t!"%[1]s septilion", t!"%[1]s septilion", t!"%[1]s septilion", t!"%[1]s septilion"],
    [t!"%[1]s oktilion", t!"%[1]s oktilion", t!"%[1]s oktilion", t!"%[1]s oktilion", t!"%[1]s oktilion"],
    [t!"%[1]s nonilion", t!"%[1]s nonilion", t!"%[1]s nonilion", t!"%[1]s nonilion", t!"%[1]s nonilion"],
    [t!"%[1]s dekilion", t!"%[1]s dekilion", t!"%[1]s dekilion", t!"%[1]s dekilion", t!"%[1]s dekilion"],
    [t!"%[1]s gogol", t!"%[1]s gogol", t!"%[1]s gogol", t!"%[1]s gogol", t!"%[1]s gogol"]]
  singular := [
    some t!"", some t!"", some t!"%s KB", some t!"%s MB", some t!"%s GB", some t!"%s TB", some t!"%s PB", some t!"", some t!"", some t!"", some t!"", some t!"", some t!"", some t!"", some t!"", some t!"", some t!"", some t!""]

/-- /repo/humanize/locale/bs/django.po. -/
def counts_bs : Counts where
  locale := loc_bs
  plural := [
    [],
    [],
    [],
    [],
    [],
    [],
    [],
    [],
    [],
    [],
    [],
    [],
    [],
    [],
    [],
    [],
    [],
    [],
    [t!"", t!"", t!""],
    [t!"", t!"", t!""],
    [t!"", t!"", t!""],
    [t!"", t!"", t!""],
    [t!"", t!"", t!""],
    [t!"", t!"", t!""],
    [t!"", t!"", t!""],
    [t!"", t!"", t!""],
    [t!"", t!"", t!""],
    [t!"", t!"", t!""],
    [t!"", t!"", t!""],
    [t!"", t!"", t!""],
    [t!"", t!"", t!""],
    [t!"", t!"", t!""],
    [t!"", t!"", t!""],
    [t!"", t!"", t!""],
    [t!"", t!"", t!""],
    [t!"", t!"", t!""]]
  singular := [
    none, none, some t!"%s KB", some t!"%s MB", some t!"%s GB", some t!"%s TB", some t!"%s PB", none, none, none, none, none, none, none, none, none, none, none]

/-- /repo/humanize/locale/ca/django.po. -/
def counts_ca : Counts where
  locale := loc_ca
  plural := [
    [t!"%[1]v any", t!"%[1]v anys"],
    [t!"%[1]v mes", t!"%[1]v mesos"],
    [t!"%[1]v setmana", t!"%[1]v setmanes"],
    [t!"%[1]v dia", t!"%[1]v dies"],
    [t!"%[1]v hora", t!"%[1]v hores"],
    [t!"%[1]v minut", t!"%[1]v minuts"],
    [t!"%[1]v any", t!"%[1]v anys"],
    [t!"%[1]v mes", t!"%[1]v mesos"],
    [t!"%[1]v setmana", t!"%[1]v setmanes"],
    [t!"%[1]v dia", t!"%[1]v dies"],
    [t!"%[1]v hora", t!"%[1]v hores"],
    [t!"%[1]v minut", t!"%[1]v minuts"],
    [t!"%[1]v any", t!"%[1]v anys"],
    [t!"%[1]v mes", t!"%[1]v mesos"],
    [t!"%[1]v setmana", t!"%[1]v setmanes"],
    [t!"%[1]v dia", t!"%[1]v dies"],
    [t!"%[1]v hora", t!"%[1]v hores"],
    [t!"%[1]v minut", t!"%[1]v minuts"],
    [t!"fa un segon", t!"fa %[1]v segons"],
    [t!"fa un minut", t!"fa %[1]v minuts"],
    [t!"fa una hora", t!"fa %[1]v hores"],
    [t!"d'aquí a un segon", t!"d'aquí a %[1]v segons"],
    [t!"d'aquí a un minut", t!"d'aquí a %[1]v minuts"],
    [t!"d'aquí a una hora", t!"d'aquí a %[1]v hores"],
    [t!"%[1]d byte", t!"%[1]d bytes"],
    [t!"%[1]s milió", t!"%[1]s milions"],
    [t!"%[1]s miliard", t!"%[1]s miliards"],
    [t!"%[1]s bilió", t!"%[1]s bilió"],
    [t!"%[1]s quadrilió", t!"%[1]s quadrilions"],
    [t!"%[1]s quintilió", t!"%[1]s quintilions"],
    [t!"%[1]s sextilió", t!"%[1]s sextilions"],
    [t!"%[1]s septilió", t!"%[1]s septilions"],
    [t!"%[1]s octilió", t!"%[1]s octilions"],
    [t!"%[1]s nonilió", t!"%[1]s nonilions"],
    [t!"%[1]s decilió", t!"%[1]s decilions"],
    [t!"%[1]s googol", t!"%[1]s googols"]]
  singular := [
    some t!"Fa %[1]v ", some t!"fa %[1]v", some t!"%s KB", some t!"%s MB", some t!"%s GB", some t!"%s TB", some t!"%s PB", some t!"%vè", some t!"%vè", some t!"%vr", some t!"%vn", some t!"%vr", some t!"%vè", some t!"%vè", some t!"%vè", some t!"%vè", some t!"%vè", some t!"%vè"]

/-- /repo/humanize/locale/ckb/django.po. -/
def counts_ckb : Counts where
  locale := loc_ckb
  plural := [
    [t!"‫%[1]v ساڵ", t!"‫%[1]v ساڵ"],
    [t!"‫%[1]v مانگ", t!"‫%[1]v مانگ"],
    [t!"‫%[1]v هەفتە", t!"‫%[1]v هەفتە"],
    [t!"‫%[1]v ڕۆژ", t!"‫%[1]v ڕۆژ"],
    [t!"‫%[1]v کاتژمێر", t!"‫%[1]v کاتژمێر"],
    [t!"‫%[1]v خولەک", t!"‫%[1]v خولەک"],
    [t!"‫%[1]v ساڵ", t!"‫%[1]v ساڵ"],
    [t!"‫%[1]v مانگ", t!"‫%[1]v مانگ"],
    [t!"‫%[1]v هەفتە", t!"‫%[1]v هەفتە"],
    [t!"‫%[1]v ڕۆژ", t!"‫%[1]v ڕۆژ"],
    [t!"‫%[1]v کاتژمێر", t!"‫%[1]v کاتژمێر"],
    [t!"‫%[1]v خولەک", t!"‫%[1]v خولەک"],
    [t!"‫%[1]v ساڵ", t!"‫%[1]v ساڵ"],
    [t!"‫%[1]v مانگ", t!"‫%[1]v مانگ"],
    [t!"‫%[1]v هەفتە", t!"‫%[1]v هەفتە"],
    [t!"‫%[1]v ڕۆژ", t!"‫%[1]v ڕۆژ"],
    [t!"‫%[1]v کاتژمێر", t!"‫%[1]v کاتژمێر"],
    [t!"‫%[1]v خولەک", t!"‫%[1]v خولەک"],
    [t!"چرکەیەک پێشتر", t!"‫%[1]v چرکە پێشتر"],
    [t!"خولەکێک پێشتر", t!"‫%[1]v خولەک پێشتر"],
    [t!"کاتژمێرێک پێشتر", t!"‫%[1]v کاتژمێر پێشتر"],
    [t!"چرکەیەک لە ئێستاوە", t!"‫%[1]v چرکە لە ئێستاوە"],
    [t!"خولەکێک لە ئێستاوە", t!"‫%[1]v خولەک لە ئێستاوە"],
    [t!"کاتژمێرێک لە ئێستاوە", t!"‫%[1]v کاتژمێر لە ئێستاوە"],
    [t!"%[1]dبایت", t!"%[1]d بایت"],
    [t!"%[1]s ملیۆن", t!"%[1]s ملیۆن"],
    [t!"‫%[1]s بلیۆن", t!"‫%[1]s بلیۆن"],
    [t!"‫%[1]s تریلۆن", t!"‫%[1]s تریلۆن"],
    [t!"‫%[1]s کوادرلیۆن", t!"‫%[1]s کوادرلیۆن"],
    [t!"‫%[1]s کوینترلیۆن", t!"‫%[1]s کوینترلیۆن"],
    [t!"‫%[1]s شەش تریلۆن", t!"‫%[1]s شەش تریلۆن"],
    [t!"‫%[1]s سێپتریلۆن", t!"‫%[1]s سێپتریلۆن"],
    [t!"‫%[1]s ئۆکتریلیۆن", t!"‫%[1]s ئۆکتریلیۆن"],
    [t!"‫%[1]s نۆنتریلۆن", t!"‫%[1]s نۆنتریلۆن"],
    [t!"‫%[1]s دێستریلیۆن", t!"‫%[1]s دێستریلیۆن"],
    [t!"‫%[1]s گوگۆڵ", t!"‫%[1]s گوگۆڵ"]]
  singular := [
    some t!"%[1]v پێشتر", some t!"%[1]v لە ئێستاوە", some t!"%s کب", some t!"%s مب", some t!"%s گب", some t!"%s تب", some t!"%s پب", some t!"‫%vth", some t!"‫%vth", some t!"‫%vst", some t!"‫%vnd", some t!"‫%vrd", some t!"‫%vth", some t!"‫%vth", some t!"‫%vth", some t!"‫%vth", some t!"‫%vth", some t!"‫%vth"]

/-- /repo/humanize/locale/cs/django.po. -/
def counts_cs : Counts where
  locale := loc_cs
  plural := [
    [t!"%[1]v rok", t!"%[1]v roky", t!"%[1]v roku", t!"%[1]v let"],
    [t!"%[1]v měsíc", t!"%[1]v měsíce", t!"%[1]v měsíců", t!"%[1]v měsíců"],
    [t!"%[1]v týden", t!"%[1]v týdny", t!"%[1]v týdne", t!"%[1]v týdnů"],
    [t!"%[1]v den", t!"%[1]v dny", t!"%[1]v dní", t!"%[1]v dní"],
    [t!"%[1]v hodina", t!"%[1]v hodiny", t!"%[1]v hodiny", t!"%[1]v hodin"],
    [t!"%[1]v minuta", t!"%[1]v minuty", t!"%[1]v minut", t!"%[1]v minut"],
    [t!"%[1]v rokem", t!"%[1]v lety", t!"%[1]v rokem", t!"%[1]v lety"],
    [t!"%[1]v měsícem", t!"%[1]v měsíci", t!"%[1]v měsícem", t!"%[1]v měsíci"],
    [t!"%[1]v týdnem", t!"%[1]v týdny", t!"%[1]v týdny", t!"%[1]v týdny"],
    [t!"%[1]v dnem", t!"%[1]v dny", t!"%[1]v dny", t!"%[1]v dny"],
    [t!"%[1]v hodinou", t!"%[1]v hodinami", t!"%[1]v hodinami", t!"%[1]v hodinami"],
    [t!"%[1]v minutou", t!"%[1]v minutami", t!"%[1]v minutami", t!"%[1]v minutami"],
    [t!"%[1]v rok", t!"%[1]v roky", t!"%[1]v let", t!"%[1]v let"],
    [t!"%[1]v měsíc", t!"%[1]v měsíce", t!"%[1]v měsíců", t!"%[1]v měsíců"],
    [t!"%[1]v týden", t!"%[1]v týdny", t!"%[1]v týdnů", t!"%[1]v týdnů"],
    [t!"%[1]v den", t!"%[1]v dny", t!"%[1]v dní", t!"%[1]v dní"],
    [t!"%[1]v hodina", t!"%[1]v hodiny", t!"%[1]v hodin", t!"%[1]v hodin"],
    [t!"%[1]v minuta", t!"%[1]v minuty", t!"%[1]v minut", t!"%[1]v minut"],
    [t!"před sekundou", t!"před %[1]v sekundami", t!"o %[1]v sekundy dříve", t!"před %[1]v sekundami"],
    [t!"před minutou", t!"před %[1]v minutami", t!"o %[1]v minuty dříve", t!"před %[1]v minutami"],
    [t!"před hodinou", t!"před %[1]v hodinami", t!"o %[1]v hodin dříve", t!"před %[1]v hodinami"],
    [t!"za sekundu", t!"za %[1]v sekundy", t!"za %[1]v sekundy", t!"za %[1]v sekund"],
    [t!"za minutu", t!"za %[1]v minuty", t!"za %[1]v minuty", t!"za %[1]v minut"],
    [t!"za hodinu", t!"za %[1]v hodiny", t!"za %[1]v hodiny", t!"za %[1]v hodin"],
    [t!"%[1]d bajt", t!"%[1]d bajty", t!"%[1]d bajtů", t!"%[1]d bajtů"],
    [t!" %[1]s milion", t!" %[1]s miliony", t!" %[1]s milionů", t!" %[1]s milionů"],
    [t!"%[1]s miliarda", t!"%[1]s miliardy", t!"%[1]s miliard", t!"%[1]s miliard"],
    [t!"%[1]s bilion", t!"%[1]s biliony", t!"%[1]s bilionů", t!"%[1]s bilionů"],
    [t!"%[1]s biliarda", t!"%[1]s biliardy", t!"%[1]s biliard", t!"%[1]s biliard"],
    [t!"%[1]s trilion", t!"%[1]s triliony", t!"%[1]s trilionů", t!"%[1]s trilionů"],
    [t!"%[1]s triliarda", t!"%[1]s triliardy", t!"%[1]s triliard", t!"%[1]s triliard"],
    [t!"%[1]s kvadrilion", t!"%[1]s kvadriliony", t!"%[1]s kvadrilionů", t!"%[1]s kvadrilionů"],
    [t!"%[1]s kvadriliarda", t!"%[1]s kvadriliardy", t!"%[1]s kvadriliard", t!"%[1]s kvadriliard"],
    [t!"%[1]s kvintilion", t!"%[1]s kvintiliony", t!"%[1]s kvintilionů", t!"%[1]s kvintilionů"],
    [t!"%[1]s kvintiliarda", t!"%[1]s kvintiliardy", t!"%[1]s kvintiliard", t!"%[1]s kvintiliard"],
    [t!"%[1]s googol", t!"%[1]s googoly", t!"%[1]s googolů", t!"%[1]s googolů"]]
  singular := [
    some t!"před %[1]v", some t!"za %[1]v", some t!"%s KB", some t!"%s MB", some t!"%s GB", some t!"%s TB", some t!"%s PB", some t!"%v.", some t!"%v.", some t!"%v.", some t!"%v.", some t!"%v.", some t!"%v.", some t!"%v.", some t!"%v.", some t!"%v.", some t!"%v.", some t!"%v."]

/-- /repo/humanize/locale/cy/django.po. -/
def counts_cy : Counts where
  locale := loc_cy
  plural := [
    [],
    [],
    [],
    [],
    [],
    [],
    [],
    [],
    [],
    [],
    [],
    [],
    [],
    [],
    [],
    [],
    [],
    [],
    [t!"un eiliad yn ôl", t!"%[1]v eiliad yn ôl", t!"%[1]v eiliad yn ôl", t!"%[1]v eiliad yn ôl"],
    [t!"un munud yn ôl", t!"%[1]v munud yn ôl", t!"%[1]v munud yn ôl", t!"%[1]v munud yn ôl"],
    [t!"un awr yn ôl", t!"%[1]v awr yn ôl", t!"%[1]v awr yn ôl", t!"%[1]v awr yn ôl"],
    [t!"un eiliad o nawr", t!"%[1]v eiliad o nawr", t!"%[1]v eiliad o nawr", t!"%[1]v eiliad o nawr"],
    [t!"un munud o nawr", t!"%[1]v funud o nawr", t!"%[1]v munud o nawr", t!"%[1]v munud o nawr"],
    [t!"un awr o nawr", t!"%[1]v awr o nawr", t!"%[1]v awr o nawr", t!"%[1]v awr o nawr"],
    [t!"%[1]d beit", t!"%[1]d beit", t!"%[1]d beit", t!"%[1]d beit"],
    [t!"%[1]s miliwn", t!"%[1]s miliwn", t!"%[1]s miliwn", t!"%[1]s miliwn"],
    [t!"%[1]s biliwn", t!"%[1]s biliwn", t!"%[1]s biliwn", t!"%[1]s biliwn"],
    [t!"%[1]s triliwn", t!"%[1]s triliwn", t!"%[1]s triliwn", t!"%[1]s triliwn"],
    [t!"%[1]s cwadriliwn", t!"%[1]s cwadriliwn", t!"%[1]s cwadriliwn", t!"%[1]s cwadriliwn"],
    [t!"%[1]s cwintiliwn", t!"%[1]s cwintiliwn", t!"%[1]s cwintiliwn", t!"%[1]s cwintiliwn"],
    [t!"%[1]s secstiliwn", t!"%[1]s secstiliwn", t!"%[1]s secstiliwn", t!"%[1]s secstiliwn"],
    [t!"%[1]s septiliwn", t!"%[1]s septiliwn", t!"%[1]s septiliwn", t!"%[1]s septiliwn"],
    [t!"%[1]s octiliwn", t!"%[1]s octiliwn", t!"%[1]s octiliwn", t!"%[1]s octiliwn"],
    [t!"%[1]s noniliwn", t!"%[1]s noniliwn", t!"%[1]s noniliwn", t!"%[1]s noniliwn"],
    [t!"%[1]s dengiliwn", t!"%[1]s dengiliwn", t!"%[1]s dengiliwn", t!"%[1]s dengiliwn"],
    [t!"%[1]s gwgol", t!"%[1]s gwgol", t!"%[1]s gwgol", t!"%[1]s gwgol"]]
  singular := [
    none, none, some t!"%s KB", some t!"%s MB", some t!"%s GB", some t!"%s TB", some t!"%s PB", none, none, none, none, none, none, none, none, none, none, none]

/-- /repo/humanize/locale/da/django.po. -/
def counts_da : Counts where
  locale := loc_da
  plural := [
    [t!"%[1]v år", t!"%[1]v år"],
    [t!"%[1]v måned", t!"%[1]v måneder"],
    [t!"%[1]v uge", t!"%[1]v uger"],
    [t!"%[1]v dag", t!"%[1]v dage"],
    [t!"%[1]v time", t!"%[1]v timer"],
    [t!"%[1]v minut", t!"%[1]v minutter"],
    [t!"%[1]v år", t!"%[1]v år"],
    [t!"%[1]v måned", t!"%[1]v måneder"],
    [t!"%[1]v uge", t!"%[1]v uger"],
    [t!"%[1]v dag", t!"%[1]v dage"],
    [t!"%[1]v time", t!"%[1]v timer"],
    [t!"%[1]v minut", t!"%[1]v minutter"],
    [t!"%[1]v år", t!"%[1]v år"],
    [t!"%[1]v måned", t!"%[1]v måneder"],
    [t!"%[1]v uge", t!"%[1]v uger"],
    [t!"%[1]v dag", t!"%[1]v dage"],
    [t!"%[1]v time", t!"%[1]v timer"],
    [t!"%[1]v minut", t!"%[1]v minutter"],
    [t!"et sekund siden", t!"%[1]v sekunder siden"],
    [t!"et minut siden", t!"%[1]v minutter siden"],
    [t!"en time siden", t!"%[1]v timer siden"],
    [t!"om et sekund", t!"om %[1]v sekunder"],
    [t!"om et minut", t!"om %[1]v minutter"],
    [t!"om en time", t!"om %[1]v timer"],
    [t!"%[1]d byte", t!"%[1]d bytes"],
    [t!"%[1]s million", t!"%[1]s millioner"],
    [t!"%[1]s milliard", t!"%[1]s milliarder"],
    [t!"%[1]s billion", t!"%[1]s billioner"],
    [t!"%[1]s billiard", t!"%[1]s billiarder"],
    [t!"%[1]s trillion", t!"%[1]s trillioner"],
    [t!"%[1]s trilliard", t!"%[1]s trilliarder"],
    [t!"%[1]s kvadrillion", t!"%[1]s kvadrillioner"],
    [t!"%[1]s kvadrilliard", t!"%[1]s kvadrilliarder"],
    [t!"%[1]s kvintillion", t!"%[1]s kvintillioner"],
    [t!"%[1]s kvintilliard", t!"%[1]s kvintilliarder"],
    [t!"%[1]s gogol", t!"%[1]s gogoler"]]
  singular := [
    some t!"%[1]v siden", some t!"%[1]v fra nu af", some t!"%s KB", some t!"%s MB", some t!"%s GB", some t!"%s TB", some t!"%s PB", some t!"%v.", some t!"%v.", some t!"%v.", some t!"%v.", some t!"%v.", some t!"%v.", some t!"%v.", some t!"%v.", some t!"%v.", some t!"%v.", some t!"%v."]

/-- /repo/humanize/locale/de/django.po. -/
def counts_de : Counts where
  locale := loc_de
  plural := [
    [t!"%[1]v Jahr", t!"%[1]v Jahre"],
    [t!"%[1]v Monat", t!"%[1]v Monate"],
    [t!"%[1]v Woche", t!"%[1]v Wochen"],
    [t!"%[1]v Tag", t!"%[1]v Tage"],
    [t!"%[1]v Stunde", t!"%[1]v Stunden"],
    [t!"%[1]v Minute", t!"%[1]v Minuten"],
    [t!"%[1]v Jahr", t!"%[1]v Jahre"],
    [t!"%[1]v Monat", t!"%[1]v Monate"],
    [t!"%[1]v Woche", t!"%[1]v Wochen"],
    [t!"%[1]v Tage", t!"%[1]v Tage"],
    [t!"%[1]v Stunde", t!"%[1]v Stunden"],
    [t!"%[1]v Minute", t!"%[1]v Minuten"],
    [t!"%[1]v Jahr", t!"%[1]v Jahre"],
    [t!"%[1]v Monat", t!"%[1]v Monate"],
    [t!"%[1]v Woche", t!"%[1]v Wochen"],
    [t!"%[1]v Tag", t!"%[1]v Tage"],
    [t!"%[1]v Stunde", t!"%[1]v Stunden"],
    [t!"%[1]v Minute", t!"%[1]v Minuten"],
    [t!"vor einer Sekunde", t!"vor %[1]v Sekunden"],
    [t!"vor einer Minute", t!"vor %[1]v Minuten"],
    [t!"vor einer Stunde", t!"vor %[1]v Stunden"],
    [t!"in einer Sekunde", t!"in %[1]v Sekunden"],
    [t!"in einer Minute", t!"in %[1]v Minuten"],
    [t!"in einer Stunde", t!"in %[1]v Stunden"],
    [t!"%[1]d Byte", t!"%[1]d Bytes"],
    [t!"%[1]s Million", t!"%[1]s Millionen"],
    [t!"%[1]s Milliarde", t!"%[1]s Milliarden"],
    [t!"%[1]s Billion", t!"%[1]s Billionen"],
    [t!"%[1]s Billiarde", t!"%[1]s Billiarden"],
    [t!"%[1]s Trillion", t!"%[1]s Trillionen"],
    [t!"%[1]s Trilliarde", t!"%[1]s Trilliarden"],
    [t!"%[1]s Quadrillion", t!"%[1]s Quadrillionen"],
    [t!"%[1]s Quadrilliarde", t!"%[1]s Quadrilliarden"],
    [t!"%[1]s Quintillion", t!"%[1]s Quintillionen"],
    [t!"%[1]s Quintilliarde", t!"%[1]s Quintilliarden"],
    [t!"%[1]s Sedezilliarde", t!"%[1]s Sedezilliarden"]]
  singular := [
    some t!"%[1]v her", some t!"%[1]v von jetzt an", some t!"%s KB", some t!"%s MB", some t!"%s GB", some t!"%s TB", some t!"%s PB", some t!"%v.", some t!"%v.", some t!"%v.", some t!"%v.", some t!"%v.", some t!"%v.", some t!"%v.", some t!"%v.", some t!"%v.", some t!"%v.", some t!"%v."]

/-- /repo/humanize/locale/dsb/django.po. -/
def counts_dsb : Counts where
  locale := loc_dsb
  plural := [
    [t!"%[1]v lěto", t!"%[1]v lěśe", t!"%[1]v lěta", t!"%[1]v lět"],
    [t!"%[1]v mjasec", t!"%[1]v mjaseca", t!"%[1]v mjasece", t!"%[1]vmjasecow"],
    [t!"%[1]v tyźeń", t!"%[1]v tyźenja", t!"%[1]v tyźenje", t!"%[1]v tyźenjow"],
    [t!"%[1]v źeń ", t!"%[1]v dnja", t!"%[1]v dny", t!"%[1]v dnjow"],
    [t!"%[1]v góźina", t!"%[1]v góźinje", t!"%[1]v góźiny", t!"%[1]v góźin"],
    [t!"%[1]v minuta", t!"%[1]v minuśe", t!"%[1]v minuty", t!"%[1]v minutow"],
    [t!"%[1]v lěto", t!"%[1]v lěśe", t!"%[1]v lěta", t!"%[1]v lět"],
    [t!"%[1]v mjasec", t!"%[1]v mjaseca", t!"%[1]v mjasece", t!"%[1]vmjasecow"],
    [t!"%[1]v tyźeń", t!"%[1]v tyźenja", t!"%[1]v tyźenje", t!"%[1]v tyźenjow"],
    [t!"%[1]v źeń", t!"%[1]v dnja", t!"%[1]v dny", t!"%[1]v dnjow"],
    [t!"%[1]v góźina", t!"%[1]v góźinje", t!"%[1]v góźiny", t!"%[1]v góźin"],
    [t!"%[1]v minuta", t!"%[1]v minuśe", t!"%[1]v minuty", t!"%[1]v minutow"],
    [t!"%[1]v lěto", t!"%[1]v lěśe", t!"%[1]v lěta", t!"%[1]v lět"],
    [t!"%[1]v mjasec", t!"%[1]v mjaseca", t!"%[1]v mjasece", t!"%[1]vmjasecow"],
    [t!"%[1]v tyźeń", t!"%[1]v tyźenja", t!"%[1]v tyźenje", t!"%[1]v tyźenjow"],
    [t!"%[1]v źeń", t!"%[1]v dnja", t!"%[1]v dny", t!"%[1]v dnjow"],
    [t!"%[1]v góźina", t!"%[1]v góźinje", t!"%[1]v góźiny", t!"%[1]v góźin"],
    [t!"%[1]v minuta", t!"%[1]v minuśe", t!"%[1]v minuty", t!"%[1]v minutow"],
    [t!"Pśed %[1]v sekundu", t!"Pśed %[1]v sekundoma", t!"Pśed %[1]v sekundami", t!"Pśed %[1]v sekundami"],
    [t!"Pśed %[1]v minutu", t!"Pśed %[1]v minutoma", t!"Pśed %[1]v minutami", t!"Pśed %[1]v minutami"],
    [t!"Pśed %[1]v góźinu", t!"Pśed %[1]v góźinoma", t!"Pśed %[1]v góźinami", t!"Pśed %[1]v góźinami"],
    [t!"za %[1]v sekundu", t!"za %[1]v sekunźe", t!"za %[1]v sekundy", t!"za %[1]v sekundow"],
    [t!"za %[1]v minutu", t!"za %[1]v minuśe", t!"za %[1]v minuty", t!"za %[1]v minutow"],
    [t!"za %[1]v góźinu", t!"za %[1]v góźinje", t!"za %[1]v góźiny", t!"za %[1]v góźin"],
    [t!"%[1]d bajt", t!"%[1]d bajta", t!"%[1]d bajty", t!"%[1]d bajtow"],
    [t!"%[1]s milion", t!"%[1]s miliona", t!"%[1]s miliony", t!"%[1]s milionow"],
    [t!"%[1]s miliarda", t!"%[1]s miliarźe", t!"%[1]s miliardy", t!"%[1]s miliardow"],
    [t!"%[1]s bilion", t!"%[1]s biliona", t!"%[1]s biliony", t!"%[1]s bilionow"],
    [t!"%[1]s biliarda", t!"%[1]s biliarźe", t!"%[1]s biliardy", t!"%[1]s biliardow"],
    [t!"%[1]s trilion", t!"%[1]s triliona", t!"%[1]s triliony", t!"%[1]s trilionow"],
    [t!"%[1]s triliarda", t!"%[1]s triliarźe", t!"%[1]s triliardy", t!"%[1]s triliardow"],
    [t!"%[1]s kwadrilion", t!"%[1]s kwadriliona", t!"%[1]s kwadriliony", t!"%[1]s kwadrilionow"],
    [t!"%[1]s kwadriliarda", t!"%[1]s kwadriliarźe", t!"%[1]s kwadriliardy", t!"%[1]s kwadriliardow"],
    [t!"%[1]s kwintilion", t!"%[1]s kwintiliona", t!"%[1]s kwintiliony", t!"%[1]s kwintilionow"],
    [t!"%[1]s kwintiliarda", t!"%[1]s kwintiliarźe", t!"%[1]s kwintiliardy", t!"%[1]s kwintiliardow"],
    [t!"%[1]s sedeciliarda", t!"%[1]s sedeciliarźe", t!"%[1]s sedeciliardy", t!"%[1]s sedeciliardow"]]
  singular := [
    some t!"pśed %[1]v", some t!"%[1]v wótněnta", some t!"%s KB", some t!"%s MB", some t!"%s GB", some t!"%s TB", some t!"%s PB", some t!"%v.", some t!"%v.", some t!"%v.", some t!"%v.", some t!"%v.", some t!"%v.", some t!"%v.", some t!"%v.", some t!"%v.", some t!"%v.", some t!"%v."]

/-- /repo/humanize/locale/el/django.po. -/
def counts_el : Counts where
  locale := loc_el
  plural := [
    [t!"", t!""],
    [t!"", t!""],
    [t!"", t!""],
    [t!"", t!""],
    [t!"", t!""],
    [t!"", t!""],
    [],
    [],
    [],
    [],
    [],
    [],
    [],
    [],
    [],
    [],
    [],
    [],
    [t!"ένα δευτερόλεπτο πρίν", t!"%[1]v δευτερόλεπτα πρίν"],
    [t!"ένα λεπτό πρίν", t!"%[1]v λεπτά πρίν"],
    [t!"μια ώρα πρίν", t!"%[1]v ώρες πρίν"],
    [t!"ένα δευτερόλεπτο από τώρα", t!"%[1]v δευτερόλεπτα από τώρα"],
    [t!"ένα λεπτό από τώρα", t!"%[1]v λεπτά από τώρα"],
    [t!"μία ώρα από τώρα", t!"%[1]v ώρες από τώρα"],
    [t!"%[1]d bytes", t!"%[1]d bytes"],
    [t!" %[1]s  εκατομμύριο", t!" %[1]s  εκατομμύρια"],
    [t!"%[1]s δισεκατομμύριο", t!"%[1]s δισεκατομμύρια"],
    [t!"%[1]s τρισεκατομμύριο", t!"%[1]s τρισεκατομμύρια"],
    [t!"%[1]s τετράκις εκατομμύριο", t!"%[1]s τετράκις εκατομμύρια"],
    [t!"%[1]s πεντάκις εκατομμύριo", t!"%[1]s πεντάκις εκατομμύρια"],
    [t!"%[1]s εξάκις εκατομμύριo", t!"%[1]s εξάκις εκατομμύρια"],
    [t!"%[1]s επτάκις εκατομμύριο", t!"%[1]s επτάκις εκατομμύρια"],
    [t!"%[1]s οκτάκις εκατομμύριο", t!"%[1]s οκτάκις εκατομμύρια"],
    [t!"%[1]s εννεάκις εκατομμύριο", t!"%[1]s εννεάκις εκατομμύρια"],
    [t!"%[1]s δεκάκις εκατομμύριο", t!"%[1]s δεκάκις εκατομμύρια"],
    [t!"%[1]s googol", t!"%[1]s googol"]]
  singular := [
    some t!"πριν από %[1]v", some t!"σε %[1]v", some t!"%s KB", some t!"%s MB", some t!"%s GB", some t!"%s TB", some t!"%s PB", some t!"%vο", some t!"%vο", some t!"%vο", some t!"%vο", some t!"%vο", some t!"%vο", some t!"%vο", some t!"%vο", some t!"%vο", some t!"%vο", some t!"%vο"]

/-- /repo/humanize/locale/enAU/django.po. -/
def counts_enAU : Counts where
  locale := loc_enAU
  plural := [
    [t!"", t!""],
    [t!"", t!""],
    [t!"", t!""],
    [t!"", t!""],
    [t!"", t!""],
    [t!"", t!""],
    [t!"", t!""],
    [t!"", t!""],
    [t!"", t!""],
    [t!"", t!""],
    [t!"", t!""],
    [t!"", t!""],
    [t!"", t!""],
    [t!"", t!""],
    [t!"", t!""],
    [t!"", t!""],
    [t!"", t!""],
    [t!"", t!""],
    [t!"", t!""],
    [t!"", t!""],
    [t!"", t!""],
    [t!"", t!""],
    [t!"", t!""],
    [t!"", t!""],
    [t!"%[1]d byte", t!"%[1]d bytes"],
    [t!"", t!""],
    [t!"", t!""],
    [t!"", t!""],
    [t!"", t!""],
    [t!"", t!""],
    [t!"", t!""],
    [t!"", t!""],
    [t!"", t!""],
    [t!"", t!""],
    [t!"", t!""],
    [t!"", t!""]]
  singular := [
    some t!"", some t!"", some t!"%s KB", some t!"%s MB", some t!"%s GB", some t!"%s TB", some t!"%s PB", some t!"%vth", some t!"%vth", some t!"%vst", some t!"%vnd", some t!"%vrd", some t!"%vth", some t!"%vth", some t!"%vth", some t!"%vth", some t!"%vth", some t!"%vth"]

/-- /repo/humanize/locale/enGB/django.po. -/
def counts_enGB : Counts where
  locale := loc_enGB
  plural := [
    [],
    [],
    [],
    [],
    [],
    [],
    [],
    [],
    [],
    [],
    [],
    [],
    [],
    [],
    [],
    [],
    [],
    [],
    [t!"", t!""],
    [t!"", t!""],
    [t!"", t!""],
    [t!"", t!""],
    [t!"", t!""],
    [t!"", t!""],
    [t!"%[1]d byte", t!"%[1]d bytes"],
    [t!"%[1]s million", t!"%[1]s million"],
    [t!"%[1]s billion", t!"%[1]s billion"],
    [t!"%[1]s trillion", t!"%[1]s trillion"],
    [t!"%[1]s quadrillion", t!"%[1]s quadrillion"],
    [t!"%[1]s quintillion", t!"%[1]s quintillion"],
    [t!"%[1]s sextillion", t!"%[1]s sextillion"],
    [t!"%[1]s septillion", t!"%[1]s septillion"],
    [t!"%[1]s octillion", t!"%[1]s octillion"],
    [t!"%[1]s nonillion", t!"%[1]s nonillion"],
    [t!"%[1]s decillion", t!"%[1]s decillion"],
    [t!"%[1]s googol", t!"%[1]s googol"]]
  singular := [
    none, none, some t!"%s KB", some t!"%s MB", some t!"%s GB", some t!"%s TB", some t!"%s PB", none, none, none, none, none, none, none, none, none, none, none]

/-- /repo/humanize/locale/eo/django.po. -/
def counts_eo : Counts where
  locale := loc_eo
  plural := [
    [t!"%[1]v jaro", t!"%[1]v jaroj"],
    [t!"%[1]v monato", t!"%[1]v monatoj"],
    [t!"%[1]v semajno", t!"%[1]v semajnoj"],
    [t!"%[1]v tago", t!"%[1]v tagoj"],
    [t!"%[1]v horo", t!"%[1]v horoj"],
    [t!"%[1]v minuto", t!"%[1]v minutoj"],
    [],
    [],
    [],
    [],
    [],
    [],
    [],
    [],
    [],
    [],
    [],
    [],
    [t!"sekundo antaŭe", t!"%[1]v sekundoj antaŭe"],
    [t!"minuto antaŭe", t!"%[1]v minutoj antaŭe"],
    [t!"horo antaŭe", t!"%[1]v horoj antaŭe"],
    [t!"post sekundo", t!"post %[1]v sekundoj"],
    [t!"post minuto", t!"post %[1]v minutoj"],
    [t!"post horo", t!"post %[1]v horoj"],
    [t!"%[1]d bitoko", t!"%[1]d bitokoj"],
    [t!"%[1]s milionoj", t!"%[1]s milionoj"],
    [t!"%[1]s miliardoj", t!"%[1]s miliardoj"],
    [t!"%[1]s triilionoj", t!"%[1]s triilionoj"],
    [t!"%[1]s kvarilionoj", t!"%[1]s kvarilionoj"],
    [t!"%[1]s kvinilionoj", t!"%[1]s kvinilionoj"],
    [t!"%[1]s sesilionoj", t!"%[1]s sesilionoj"],
    [t!"%[1]s sepilionoj", t!"%[1]s sepilionoj"],
    [t!"%[1]s okilionoj", t!"%[1]s okilionoj"],
    [t!"%[1]s naŭilionoj", t!"%[1]s naŭilionoj"],
    [t!"%[1]s dekilionoj", t!"%[1]s dekilionoj"],
    [t!"%[1]s gugloj", t!"%[1]s gugloj"]]
  singular := [
    some t!"antaŭ %[1]v", some t!"antaŭ %[1]v", some t!"%s KB", some t!"%s MB", some t!"%s GB", some t!"%s TB", some t!"%s PB", some t!"%va", some t!"%va", some t!"%va", some t!"%va", some t!"%va", some t!"%va", some t!"%va", some t!"%va", some t!"%va", some t!"%va", some t!"%va"]

/-- /repo/humanize/locale/es/django.po. -/
def counts_es : Counts where
  locale := loc_es
  plural := [
    [t!"%[1]v año", t!"%[1]v años", t!"%[1]v años"],
    [t!"%[1]v mes", t!"%[1]v meses", t!"%[1]v meses"],
    [t!"%[1]v semana", t!"%[1]v semanas", t!"%[1]v semanas"],
    [t!"%[1]v día", t!"%[1]v días", t!"%[1]v días"],
    [t!"%[1]v hora", t!"%[1]v horas", t!"%[1]v horas"],
    [t!"%[1]v minuto", t!"%[1]v minutos", t!"%[1]v minutos"],
    [t!"%[1]v año", t!"%[1]v años", t!"%[1]v años"],
    [t!"%[1]v mes", t!"%[1]v meses", t!"%[1]v meses"],
    [t!"%[1]v semana", t!"%[1]v semanas", t!"%[1]v semanas"],
    [t!"%[1]v día", t!"%[1]v días", t!"%[1]v días"],
    [t!"%[1]v hora", t!"%[1]v horas", t!"%[1]v horas"],
    [t!"%[1]v minuto", t!"%[1]v minutos", t!"%[1]v minutos"],
    [t!"%[1]v año", t!"%[1]v años", t!"%[1]v años"],
    [t!"%[1]v mes", t!"%[1]v meses", t!"%[1]v meses"],
    [t!"%[1]v semana", t!"%[1]v semanas", t!"%[1]v semanas"],
    [t!"%[1]v día", t!"%[1]v días", t!"%[1]v días"],
    [t!"%[1]v hora", t!"%[1]v horas", t!"%[1]v horas"],
    [t!"%[1]v minuto", t!"%[1]v minutos", t!"%[1]v minutos"],
    [t!"hace un segundo", t!"hace %[1]v segundos", t!"hace %[1]v segundos"],
    [t!"hace un minuto", t!"hace %[1]v minutos", t!"hace %[1]v minutos"],
    [t!"hace una hora", t!"hace %[1]v horas", t!"hace %[1]v horas"],
    [t!"un segundo a partir de ahora", t!"%[1]v segundos a partir de ahora", t!"%[1]v segundos a partir de ahora"],
    [t!"un minuto a partir de ahora", t!"%[1]v minutos a partir de ahora", t!"%[1]v minutos a partir de ahora"],
    [t!"una hora a partir de ahora", t!"%[1]v horas a partir de ahora", t!"%[1]v horas a partir de ahora"],
    [t!"%[1]d byte", t!"%[1]d bytes", t!"%[1]d bytes"],
    [t!"%[1]s millon", t!"%[1]s millones", t!"%[1]s millones"],
    [t!"%[1]s millardo", t!"%[1]s millardos", t!"%[1]s millardos"],
    [t!"%[1]s billón", t!"%[1]s billones", t!"%[1]s billones"],
    [t!"%[1]s billardos", t!"%[1]s billardos", t!"%[1]s billardos"],
    [t!"%[1]s trillón", t!"%[1]s trillones", t!"%[1]s trillones"],
    [t!"%[1]s trillardo", t!"%[1]s trillardos", t!"%[1]s trillardos"],
    [t!"%[1]s cuatrillón", t!"%[1]s cuatrillones", t!"%[1]s cuatrillones"],
    [t!"%[1]s cuatrillardo", t!"%[1]s cuatrillardos", t!"%[1]s cuatrillardos"],
    [t!"%[1]s quintillón", t!"%[1]s quintillones", t!"%[1]s quintillones"],
    [t!"%[1]s quintillardo", t!"%[1]s quintillardos", t!"%[1]s quintillardos"],
    [t!" %[1]s  googol", t!" %[1]s  gúgoles", t!" %[1]s  gúgoles"]]
  singular := [
    some t!"hace %[1]v", some t!"%[1]v desde ahora", some t!"%s KB", some t!"%s MB", some t!"%s GB", some t!"%s TB", some t!"%s PB", some t!"%vº", some t!"%vº", some t!"%vº", some t!"%vº", some t!"%vº", some t!"%vº", some t!"%vº", some t!"%vº", some t!"%vº", some t!"%vº", some t!"%vº"]

/-- /repo/humanize/locale/esAR/django.po. -/
def counts_esAR : Counts where
  locale := loc_esAR
  plural := [
    [t!"%[1]v año", t!"%[1]v años", t!"%[1]v años"],
    [t!"%[1]v mes", t!"%[1]v meses", t!"%[1]v meses"],
    [t!"%[1]v semana", t!"%[1]v semanas", t!"%[1]v semanas"],
    [t!"%[1]v día", t!"%[1]v días", t!"%[1]v días"],
    [t!"%[1]v hora", t!"%[1]v horas", t!"%[1]v horas"],
    [t!"%[1]v minuto", t!"%[1]v minutos", t!"%[1]v minutos"],
    [t!"%[1]v año", t!"%[1]v años"],
    [t!"%[1]v mes", t!"%[1]v meses"],
    [t!"%[1]v semana", t!"%[1]v semanas"],
    [t!"%[1]v día", t!"%[1]v días"],
    [t!"%[1]v hora", t!"%[1]v horas"],
    [t!"%[1]v minuto", t!"%[1]v minutos"],
    [t!"%[1]v año", t!"%[1]v años"],
    [t!"%[1]v mes", t!"%[1]v meses"],
    [t!"%[1]v semana", t!"%[1]v semanas"],
    [t!"%[1]v día", t!"%[1]v días"],
    [t!"%[1]v hora", t!"%[1]v horas"],
    [t!"%[1]v minuto", t!"%[1]v minutos"],
    [t!"hace un segundo", t!"hace %[1]v segundos"],
    [t!"hace un minuto", t!"hace %[1]v minutos"],
    [t!"hace una hora", t!"hace %[1]v horas"],
    [t!"dentro de un segundo", t!"dentro de %[1]v segundos"],
    [t!"dentro de un minuto", t!"dentro de %[1]v minutos"],
    [t!"dentro de una hora", t!"dentro de %[1]v horas"],
    [t!"%[1]d byte", t!"%[1]d bytes", t!"%[1]d bytes"],
    [t!"%[1]s millón", t!"%[1]s millones"],
    [t!"%[1]s millardo", t!"%[1]s millardos"],
    [t!"%[1]s billón", t!"%[1]s billones"],
    [t!"%[1]s mil billones", t!"%[1]s miles de billones"],
    [t!"%[1]s trillón", t!"%[1]s trilliones"],
    [t!"%[1]s mil trillones", t!"%[1]s miles de trillones"],
    [t!"%[1]s cuatrillón", t!"%[1]s cuatrillones"],
    [t!"%[1]s mil cuatrillones", t!"%[1]s miles de cuatrillones"],
    [t!"%[1]s quintillón", t!"%[1]s quintillones"],
    [t!"%[1]s mil quintillones", t!"%[1]s miles de quintillones"],
    [t!"%[1]s \"gúgol\"", t!"%[1]s \"gúgols\""]]
  singular := [
    some t!"hace %[1]v", some t!"dentro de %[1]v", some t!"%s KB", some t!"%s MB", some t!"%s GB", some t!"%s TB", some t!"%s PB", some t!"%v.º", some t!"%v.º", some t!"%v.º", some t!"%v.º", some t!"%v.º", some t!"%v.º", some t!"%v.º", some t!"%v.º", some t!"%v.º", some t!"%v.º", some t!"%v.º"]

/-- /repo/humanize/locale/esCO/django.po. -/
def counts_esCO : Counts where
  locale := loc_esCO
  plural := [
    [],
    [],
    [],
    [],
    [],
    [],
    [],
    [],
    [],
    [],
    [],
    [],
    [],
    [],
    [],
    [],
    [],
    [],
    [t!"hace un segundo", t!"hace %[1]v segundos"],
    [t!"hace un minuto", t!"hace %[1]v minutos"],
    [t!"hace una hora", t!"hace %[1]v horas"],
    [t!"un segundo a partir de ahora", t!"%[1]v segundos a partir de ahora"],
    [t!"un minuto a partir de ahora", t!"%[1]v minutos a partir de ahora"],
    [t!"una hora a partir de ahora", t!"%[1]v horas a partir de ahora"],
    [t!"%[1]d byte", t!"%[1]d bytes"],
    [t!"%[1]s millón", t!"%[1]s millones"],
    [t!"%[1]s millardo", t!"%[1]s millardos"],
    [t!"%[1]s billón", t!"%[1]s billones"],
    [t!"%[1]s billardos", t!"%[1]s billardos"],
    [t!"%[1]s trillón", t!"%[1]s trillones"],
    [t!"%[1]s trillardo", t!"%[1]s trillardos"],
    [t!"%[1]s cuatrillón", t!"%[1]s cuatrillones"],
    [t!"%[1]s cuatrillardo", t!"%[1]s cuatrillardos"],
    [t!"%[1]s quintillón", t!"%[1]s quintillones"],
    [t!"%[1]s quintillardo", t!"%[1]s quintillardos"],
    [t!" %[1]s  googol", t!" %[1]s  googol"]]
  singular := [
    none, none, some t!"%s KB", some t!"%s MB", some t!"%s GB", some t!"%s TB", some t!"%s PB", none, none, none, none, none, none, none, none, none, none, none]

/-- /repo/humanize/locale/esMX/django.po. -/
def counts_esMX : Counts where
  locale := loc_esMX
  plural := [
    [t!"", t!""],
    [t!"", t!""],
    [t!"", t!""],
    [t!"", t!""],
    [t!"%[1]v hora", t!"%[1]v horas"],
    [t!"", t!""],
    [],
    [],
    [],
    [],
    [],
    [],
    [],
    [],
    [],
    [],
    [],
    [],
    [t!"hace un segundo", t!"Hace %[1]v segundos"],
    [t!"hace un minuto", t!"Hace %[1]v minutos"],
    [t!"hace una hora", t!"Hace %[1]v horas"],
    [t!"Un segundo desde ahora", t!"%[1]v desde ahora"],
    [t!"", t!""],
    [t!"", t!""],
    [t!"%[1]d byte", t!"%[1]d bytes"],
    [t!"%[1]s millones", t!"%[1]s millones"],
    [t!"%[1]s billiones", t!"%[1]s billiones"],
    [t!"%[1]s trilliones", t!"%[1]s trilliones"],
    [t!"%[1]s cuatrillón", t!"%[1]s cuatrillones"],
    [t!"%[1]s quintillón", t!"%[1]s quintillones"],
    [t!"%[1]s sextillón", t!"%[1]s sextillones"],
    [t!"%[1]s septillón", t!"%[1]s septillones"],
    [t!"%[1]s octillón", t!"%[1]s octillones"],
    [t!"%[1]s nonillón", t!"%[1]s nonillones"],
    [t!"%[1]s decillón", t!"%[1]s decillones"],
    [t!"%[1]s googol", t!"%[1]s googoles"]]
  singular := [
    none, none, some t!"%s KB", some t!"%s MB", some t!"%s GB", some t!"%s TB", some t!"%s PB", none, none, none, none, none, none, none, none, none, none, none]

/-- /repo/humanize/locale/esVE/django.po. -/
def counts_esVE : Counts where
  locale := loc_esVE
  plural := [
    [],
    [],
    [],
    [],
    [],
    [],
    [],
    [],
    [],
    [],
    [],
    [],
    [],
    [],
    [],
    [],
    [],
    [],
    [t!"", t!""],
    [t!"", t!""],
    [t!"", t!""],
    [t!"", t!""],
    [t!"", t!""],
    [t!"", t!""],
    [t!"%[1]d byte", t!"%[1]d bytes"],
    [t!"", t!""],
    [t!"", t!""],
    [t!"", t!""],
    [t!"", t!""],
    [t!"", t!""],
    [t!"", t!""],
    [t!"", t!""],
    [t!"", t!""],
    [t!"", t!""],
    [t!"", t!""],
    [t!"", t!""]]
  singular := [
    none, none, some t!"%s KB", some t!"%s MB", some t!"%s GB", some t!"%s TB", some t!"%s PB", none, none, none, none, none, none, none, none, none, none, none]

/-- /repo/humanize/locale/et/django.po. -/
def counts_et : Counts where
  locale := loc_et
  plural := [
    [t!"%[1]v aasta", t!"%[1]v aastat"],
    [t!"%[1]v kuu", t!"%[1]v kuud"],
    [t!"%[1]v nädal", t!"%[1]v nädalat"],
    [t!"%[1]v päev", t!"%[1]v päeva"],
    [t!"%[1]v tund", t!"%[1]v tundi"],
    [t!"%[1]v minut", t!"%[1]v minutit"],
    [t!"%[1]v aasta", t!"%[1]v aastat"],
    [t!"%[1]v kuu", t!"%[1]v kuud"],
    [t!"%[1]v nädal", t!"%[1]v nädalat"],
    [t!"%[1]v päev", t!"%[1]v päeva"],
    [t!"%[1]v tund", t!"%[1]v tundi"],
    [t!"%[1]v minut", t!"%[1]v minutit"],
    [t!"%[1]v aasta", t!"%[1]v aastat"],
    [t!"%[1]v kuu", t!"%[1]v kuud"],
    [t!"%[1]v nädal", t!"%[1]v nädalat"],
    [t!"%[1]v päev", t!"%[1]v päeva"],
    [t!"%[1]v tund", t!"%[1]v tundi"],
    [t!"%[1]v minut", t!"%[1]v minutit"],
    [t!"sekund tagasi", t!"%[1]v sekundit tagasi"],
    [t!"minut tagasi", t!"%[1]v minutit tagasi"],
    [t!"tund tagasi", t!"%[1]v tundi tagasi"],
    [t!"sekund praegusest hetkest", t!"%[1]v sekundit praegusest hetkest"],
    [t!"minut praegusest hetkest", t!"%[1]v minutit praegusest hetkest"],
    [t!"tund praegusest hetkest", t!"%[1]v tundi praegusest hetkest"],
    [t!"%[1]d bait", t!"%[1]d baiti"],
    [t!"%[1]s miljon", t!"%[1]s miljonit"],
    [t!"%[1]s miljard", t!"%[1]s miljardit"],
    [t!"%[1]s triljon", t!"%[1]s triljonit"],
    [t!"%[1]s kvadriljon", t!"%[1]s kvadriljonit"],
    [t!"%[1]s kvintiljon", t!"%[1]s kvintiljonit"],
    [t!"%[1]s sekstiljon", t!"%[1]s sekstiljonit"],
    [t!"%[1]s septiljon", t!"%[1]s septiljonit"],
    [t!"%[1]s oktiljon", t!"%[1]s oktiljonit"],
    [t!"%[1]s noniljon", t!"%[1]s noniljonit"],
    [t!"%[1]s detsiljon", t!"%[1]s detsiljonit"],
    [t!"%[1]s googol", t!"%[1]s googolit"]]
  singular := [
    some t!"%[1]v tagasi", some t!"%[1]v praegusest hetkest", some t!"%s kB", some t!"%s MB", some t!"%s GB", some t!"%s TB", some t!"%s PB", some t!"%v.", some t!"%v.", some t!"%v.", some t!"%v.", some t!"%v.", some t!"%v.", some t!"%v.", some t!"%v.", some t!"%v.", some t!"%v.", some t!"%v."]

/-- /repo/humanize/locale/eu/django.po. -/
def counts_eu : Counts where
  locale := loc_eu
  plural := [
    [t!"urte %[1]v", t!"%[1]v urte"],
    [t!"hilabete %[1]v", t!"%[1]v hilabete"],
    [t!"aste %[1]v", t!"%[1]v aste"],
    [t!"egun %[1]v", t!"%[1]v egun"],
    [t!"ordu %[1]v", t!"%[1]v ordu"],
    [t!"minutu %[1]v", t!"%[1]v minutu"],
    [t!" urte %[1]v", t!"%[1]v urte"],
    [t!"hilabete %[1]v", t!"%[1]v hilabete"],
    [t!"aste %[1]v", t!"%[1]v aste"],
    [t!"egun %[1]v", t!"%[1]v egun"],
    [t!"ordu %[1]v", t!"%[1]v ordu"],
    [t!"minutu %[1]v", t!"%[1]v minutu"],
    [t!"urte %[1]v", t!"%[1]v urte"],
    [t!"hilabete %[1]v", t!"%[1]v hilabete"],
    [t!"aste %[1]v", t!"%[1]v aste"],
    [t!"egun %[1]v", t!"%[1]v egun"],
    [t!"ordu %[1]v", t!"%[1]v ordu"],
    [t!"minutu %[1]v", t!"%[1]v minutu"],
    [t!"duela segundu bat", t!"duela %[1]v segundo"],
    [t!"duela minutu bat", t!"duela %[1]v minutu"],
    [t!"duela ordubete", t!"duela %[1]v ordu"],
    [t!"segundu bat barru", t!"%[1]v segundo barru"],
    [t!"minutu bat barru", t!"%[1]v minutu barru"],
    [t!"ordubete barru", t!"%[1]v ordu barru"],
    [t!"byte %[1]d ", t!"%[1]d byte"],
    [t!"milioi %[1]s", t!"%[1]s milioi"],
    [t!"bilioi %[1]s", t!"%[1]s bilioi"],
    [t!"trilioi %[1]s", t!"%[1]s trilioi"],
    [t!"kuatrilioi %[1]s", t!"%[1]s kuatrilioi"],
    [t!"kintilioi %[1]s", t!"%[1]s kintilioi"],
    [t!"sextilioi %[1]s", t!"%[1]s sextilioi"],
    [t!"septilioi %[1]s", t!"%[1]s septilioi"],
    [t!"octillioi %[1]s", t!" %[1]s octilioi"],
    [t!"nonilioi %[1]s", t!"%[1]s nonilioi"],
    [t!"dezilioi %[1]s ", t!"%[1]s dezilioi"],
    [t!"googol %[1]s", t!"%[1]s googol"]]
  singular := [
    some t!"duela %[1]v", some t!"%[1]v barru", some t!"%s KB", some t!"%s MB", some t!"%s GB", some t!"%s TB", some t!"%s PB", some t!"%v.", some t!"%v.", some t!"%v.", some t!"%v.", some t!"%v.", some t!"%v.", some t!"%v.", some t!"%v.", some t!"%v.", some t!"%v.", some t!"%v."]

/-- /repo/humanize/locale/fa/django.po. -/
def counts_fa : Counts where
  locale := loc_fa
  plural := [
    [t!"%[1]v سال", t!"%[1]v سال"],
    [t!"%[1]v ماه", t!"%[1]v ماه"],
    [t!"%[1]v هفته", t!"%[1]v هفته"],
    [t!"%[1]v روز", t!"%[1]v روز"],
    [t!"%[1]v ساعت", t!"%[1]v ساعت"],
    [t!"%[1]v دقیقه", t!"%[1]v دقیقه"],
    [t!"%[1]v سال", t!"%[1]v سال"],
    [t!"%[1]v ماه", t!"%[1]v ماه"],
    [t!"%[1]v هفته", t!"%[1]v هفته"],
    [t!"%[1]v روز", t!"%[1]v روز"],
    [t!"%[1]v ساعت", t!"%[1]v ساعت"],
    [t!"%[1]v دقیقه", t!"%[1]v دقیقه"],
    [t!"%[1]v سال", t!"%[1]v سال"],
    [t!"%[1]v ماه", t!"%[1]v ماه"],
    [t!"%[1]v هفته", t!"%[1]v هفته"],
    [t!"%[1]v روز", t!"%[1]v روز"],
    [t!"%[1]v ساعت", t!"%[1]v ساعت"],
    [t!"%[1]v دقیقه", t!"%[1]v دقیقه"],
    [t!"%[1]v ثانیه پیش", t!"%[1]v ثانیه پیش"],
    [t!"%[1]v دقیقه پیش", t!"%[1]v دقیقه پیش"],
    [t!"%[1]v ساعت پیش", t!"%[1]v ساعت پیش"],
    [t!"%[1]v ثانیه دیگر", t!"%[1]v ثانیه دیگر"],
    [t!"%[1]v دقیقه دیگر", t!"%[1]v دقیقه دیگر"],
    [t!"%[1]v ساعت دیگر", t!"%[1]v ساعت دیگر"],
    [t!"%[1]d بایت", t!"%[1]d بایت"],
    [t!"%[1]s میلیون", t!"%[1]s میلیون"],
    [t!"%[1]s میلیارد", t!"%[1]s میلیارد"],
    [t!"%[1]s تریلیون", t!"%[1]s تریلیون"],
    [t!"%[1]s کوادریلیون", t!"%[1]s کوادریلیون"],
    [t!"%[1]s کوانتینیوم", t!"%[1]s کوانتینیوم"],
    [t!"%[1]s با ۲۱ صفر", t!"%[1]s با ۲۱ صفر"],
    [t!"%[1]s سپتیلیون", t!"%[1]s سپتیلیون"],
    [t!"%[1]s octillion", t!"%[1]s octillion"],
    [t!"%[1]s با ۵۴ صفر", t!"%[1]s با ۵۴ صفر"],
    [t!"%[1]s با شصت صفر", t!"%[1]s با شصت صفر"],
    [t!"%[1]s گوگُل", t!"%[1]s گوگُل"]]
  singular := [
    some t!"%[1]v پیش", some t!"%[1]v دیگر", some t!"%s KB", some t!"%s MB", some t!"%s GB", some t!"%s TB", some t!"%s PB", some t!"%vم", some t!"%vم", some t!"%vین", some t!"%vم", some t!"%vم", some t!"%vم", some t!"%vم", some t!"%vم", some t!"%vم", some t!"%vم", some t!"%vم"]

/-- /repo/humanize/locale/fi/django.po. -/
def counts_fi : Counts where
  locale := loc_fi
  plural := [
    [t!"%[1]v vuosi", t!"%[1]v vuotta"],
    [t!"%[1]v kuukausi", t!"%[1]v kuukautta "],
    [t!"%[1]v viikko", t!"%[1]v viikkoa"],
    [t!"%[1]v päivä", t!"%[1]v päivää"],
    [t!"%[1]v tunti", t!"%[1]v tuntia"],
    [t!"%[1]v minuutti", t!"%[1]v minuuttia"],
    [t!"%[1]v vuosi", t!"%[1]v vuotta"],
    [t!"%[1]vkuukausi", t!"%[1]vkuukautta"],
    [t!"%[1]v viikko", t!"%[1]v viikkoa"],
    [t!"%[1]vpäivä", t!"%[1]v päivää"],
    [t!"%[1]v tunti", t!"%[1]v tuntia"],
    [t!"%[1]v minuutti", t!"%[1]v minuuttia"],
    [t!"%[1]v vuosi", t!"%[1]v vuotta"],
    [t!"%[1]v kuukausi", t!"%[1]v kuukautta "],
    [t!"%[1]v viikko", t!"%[1]v viikkoa"],
    [t!"%[1]v päivä", t!"%[1]v päivää"],
    [t!"%[1]v tunti", t!"%[1]v tuntia"],
    [t!"%[1]v minuutti", t!"%[1]v minuuttia"],
    [t!"sekunti sitten", t!"%[1]v sekuntia sitten"],
    [t!"minuutti sitten", t!"%[1]v minuuttia sitten"],
    [t!"tunti sitten", t!"%[1]v tuntia sitten"],
    [t!"sekunnin päästä", t!"%[1]v sekunnin päästä"],
    [t!"minuutin päästä", t!"%[1]v minuutin päästä"],
    [t!"tunnin päästä", t!"%[1]v tunnin päästä"],
    [t!"%[1]d tavu", t!"%[1]d tavua"],
    [t!"%[1]s miljoona", t!"%[1]s miljoonaa"],
    [t!"%[1]s miljardi", t!"%[1]s miljardia"],
    [t!"%[1]s biljoona", t!"%[1]s biljoonaa"],
    [t!"%[1]s kvadriljoona", t!"%[1]s kvadriljoonaa"],
    [t!"%[1]s kvintiljoona", t!"%[1]s kvintiljoonaa"],
    [t!"%[1]s sekstiljoona", t!"%[1]s sekstiljoonaa"],
    [t!"%[1]s septiljoona", t!"%[1]s septiljoonaa"],
    [t!"%[1]s oktiljoona", t!"%[1]s oktiljoonaa"],
    [t!"%[1]s noniljoona", t!"%[1]s noniljoonaa"],
    [t!"%[1]s dekiljoona", t!"%[1]s dekiljoonaa"],
    [t!"%[1]s googol", t!"%[1]s googolia"]]
  singular := [
    some t!"%[1]v sitten", some t!"%[1]v nykyhetkestä", some t!"%s KB", some t!"%s MB", some t!"%s GB", some t!"%s TB", some t!"%s PB", some t!"%v.", some t!"%v.", some t!"%v.", some t!"%v.", some t!"%v.", some t!"%v.", some t!"%v.", some t!"%v.", some t!"%v.", some t!"%v.", some t!"%v."]

/-- /repo/humanize/locale/fr/django.po. -/
def counts_fr : Counts where
  locale := loc_fr
  plural := [
    [t!"%[1]v année", t!"%[1]v ans", t!"%[1]v ans"],
    [t!"%[1]v mois", t!"%[1]v mois", t!"%[1]v mois"],
    [t!"%[1]v semaine", t!"%[1]v semaines", t!"%[1]v semaines"],
    [t!"%[1]v jour", t!"%[1]v jours", t!"%[1]v jours"],
    [t!"%[1]v heure", t!"%[1]v heures", t!"%[1]v heures"],
    [t!"%[1]v minute", t!"%[1]v minutes", t!"%[1]v minutes"],
    [t!"%[1]v année", t!"%[1]v années", t!"%[1]v années"],
    [t!"%[1]v mois", t!"%[1]v mois", t!"%[1]v mois"],
    [t!"%[1]v semaine", t!"%[1]v semaines", t!"%[1]v semaines"],
    [t!"%[1]v jour", t!"%[1]v jours", t!"%[1]v jours"],
    [t!"%[1]v heure", t!"%[1]v heures", t!"%[1]v heures"],
    [t!"%[1]v minute", t!"%[1]v minutes", t!"%[1]v minutes"],
    [t!"%[1]v année", t!"%[1]v années", t!"%[1]v années"],
    [t!"%[1]v mois", t!"%[1]v mois", t!"%[1]v mois"],
    [t!"%[1]v semaine", t!"%[1]v semaines", t!"%[1]v semaines"],
    [t!"%[1]v jour", t!"%[1]v jours", t!"%[1]v jours"],
    [t!"%[1]v heure", t!"%[1]v heures", t!"%[1]v heures"],
    [t!"%[1]v minute", t!"%[1]v minutes", t!"%[1]v minutes"],
    [t!"il y a une seconde", t!"il y a %[1]v secondes", t!"il y a %[1]v secondes"],
    [t!"il y a une minute", t!"il y a %[1]v minutes", t!"il y a %[1]v minutes"],
    [t!"il y a une heure", t!"il y a %[1]v heures", t!"il y a %[1]v heures"],
    [t!"dans une seconde", t!"dans %[1]v secondes", t!"dans %[1]v secondes"],
    [t!"dans une minute", t!"dans %[1]v minutes", t!"dans %[1]v minutes"],
    [t!"dans une heure", t!"dans %[1]v heures", t!"dans %[1]v heures"],
    [t!"%[1]d octet", t!"%[1]d octets", t!"%[1]d octets"],
    [t!"%[1]s million", t!"%[1]s millions", t!"%[1]s millions"],
    [t!"%[1]s milliard", t!"%[1]s milliards", t!"%[1]s milliards"],
    [t!"%[1]s billion", t!"%[1]s billions", t!"%[1]s billions"],
    [t!"%[1]s quadrillion", t!"%[1]s quadrillions", t!"%[1]s quadrillions"],
    [t!"%[1]s quintillion", t!"%[1]s quintillions", t!"%[1]s quintillions"],
    [t!"%[1]s sextillion", t!"%[1]s sextillion", t!"%[1]s sextillion"],
    [t!"%[1]s septillion", t!"%[1]s septillions", t!"%[1]s septillions"],
    [t!"%[1]s octillion", t!"%[1]s octillions", t!"%[1]s octillions"],
    [t!"%[1]s nonillion", t!"%[1]s nonillions", t!"%[1]s nonillions"],
    [t!"%[1]s décillion", t!"%[1]s décillions", t!"%[1]s décillions"],
    [t!"%[1]s gogol", t!"%[1]s gogols", t!"%[1]s gogols"]]
  singular := [
    some t!"il y a %[1]v", some t!"dans %[1]v", some t!"%s Kio", some t!"%s Mio", some t!"%s Gio", some t!"%s Tio", some t!"%s Pio", some t!"%ve", some t!"%ve", some t!"%ver", some t!"%ve", some t!"%ve", some t!"%ve", some t!"%ve", some t!"%ve", some t!"%ve", some t!"%ve", some t!"%ve"]

/-- /repo/humanize/locale/fy/django.po. -/
def counts_fy : Counts where
  locale := loc_fy
  plural := [
    [],
    [],
    [],
    [],
    [],
    [],
    [],
    [],
    [],
    [],
    [],
    [],
    [],
    [],
    [],
    [],
    [],
    [],
    [t!"", t!""],
    [t!"", t!""],
    [t!"", t!""],
    [t!"", t!""],
    [t!"", t!""],
    [t!"", t!""],
    [t!"", t!""],
    [t!"", t!""],
    [t!"", t!""],
    [t!"", t!""],
    [t!"", t!""],
    [t!"", t!""],
    [t!"", t!""],
    [t!"", t!""],
    [t!"", t!""],
    [t!"", t!""],
    [t!"", t!""],
    [t!"", t!""]]
  singular := [
    none, none, some t!"", some t!"", some t!"", some t!"", some t!"", none, none, none, none, none, none, none, none, none, none, none]

/-- /repo/humanize/locale/ga/django.po. -/
def counts_ga : Counts where
  locale := loc_ga
  plural := [
    [t!"%[1]v bhliain", t!"%[1]v bliain", t!"%[1]v bliain", t!"%[1]v bliain", t!"%[1]v bliain"],
    [t!"%[1]v mí", t!"%[1]v míonna", t!"%[1]v míonna", t!"%[1]v míonna", t!"%[1]v míonna"],
    [t!"%[1]v seachtain", t!"%[1]v seachtainí", t!"%[1]v seachtainí", t!"%[1]v seachtainí", t!"%[1]v seachtainí"],
    [t!"%[1]v lá", t!"%[1]v laethanta", t!"%[1]v laethanta", t!"%[1]v laethanta", t!"%[1]v laethanta"],
    [t!"%[1]v uair", t!"%[1]v huaireanta", t!"%[1]v huaireanta", t!"%[1]v huaireanta", t!"%[1]v huaireanta"],
    [t!"%[1]v nóiméad", t!"%[1]v nóiméad", t!"%[1]v nóiméad", t!"%[1]v nóiméad", t!"%[1]v nóiméad"],
    [t!"%[1]v bhliain", t!"%[1]v bliain", t!"%[1]v bliain", t!"%[1]v bliain", t!"%[1]v bliain"],
    [t!"%[1]v mí", t!"%[1]v mí", t!"%[1]v mí", t!"%[1]v mí", t!"%[1]v mí"],
    [t!"%[1]v seachtain", t!"%[1]v seachtain", t!"%[1]v seachtain", t!"%[1]v seachtain", t!"%[1]v seachtain"],
    [t!"%[1]v lá", t!"%[1]v lá", t!"%[1]v lá", t!"%[1]v lá", t!"%[1]v lá"],
    [t!"%[1]v uair", t!"%[1]v uair an chloig", t!"%[1]v uair an chloig", t!"%[1]v uair an chloig", t!"%[1]v uair an chloig"],
    [t!"%[1]v nóiméad", t!"%[1]v nóiméad", t!"%[1]v nóiméad", t!"%[1]v nóiméad", t!"%[1]v nóiméad"],
    [t!"%[1]v bhliain", t!"%[1]v bliain", t!"%[1]v bliain", t!"%[1]v bliain", t!"%[1]v bliain"],
    [t!"%[1]v mí", t!"%[1]v mí", t!"%[1]v mí", t!"%[1]v mí", t!"%[1]v mí"],
    [t!"%[1]v seachtain", t!"%[1]v seachtain", t!"%[1]v seachtain", t!"%[1]v seachtain", t!"%[1]v seachtain"],
    [t!"%[1]v lá", t!"%[1]v lá", t!"%[1]v lá", t!"%[1]v lá", t!"%[1]v lá"],
    [t!"%[1]v uair", t!"%[1]v uair an chloig", t!"%[1]v uair an chloig", t!"%[1]v uair an chloig", t!"%[1]v uair an chloig"],
    [t!"%[1]v nóiméad", t!"%[1]v nóiméad", t!"%[1]v nóiméad", t!"%[1]v nóiméad", t!"%[1]v nóiméad"],
    [t!"soicind ó shin", t!"%[1]v soicindí ó shin", t!"%[1]v soicindí ó shin", t!"%[1]v soicindí ó shin", t!"%[1]v soicindí ó shin"],
    [t!"nóiméad ó shin", t!"%[1]v nóiméad ó shin", t!"%[1]v nóiméad ó shin", t!"%[1]v nóiméad ó shin", t!"%[1]v nóiméad ó shin"],
    [t!"uair an chloig ó shin", t!"%[1]v uair an chloig ó shin", t!"%[1]v uair an chloig ó shin", t!"%[1]v uair an chloig ó shin", t!"%[1]v uair an chloig ó shin"],
    [t!"soicind as seo amach", t!"%[1]v soicind as seo amach", t!"%[1]v soicind as seo amach", t!"%[1]v soicind as seo amach", t!"%[1]v soicind as seo amach"],
    [t!"nóiméad ó anois", t!"%[1]v nóiméad as seo", t!"%[1]v nóiméad as seo", t!"%[1]v nóiméad as seo", t!"%[1]v nóiméad as seo"],
    [t!"uair an chloig ó anois", t!"%[1]v uair an chloig as seo amach", t!"%[1]v uair an chloig as seo amach", t!"%[1]v uair an chloig as seo amach", t!"%[1]v uair an chloig as seo amach"],
    [t!"%[1]d bheart", t!"%[1]d bheart", t!"%[1]d bheart", t!"%[1]d mbeart", t!"%[1]d beart"],
    [t!" %[1]s  milliún", t!" %[1]s  milliún", t!" %[1]s  milliún", t!" %[1]s  milliún", t!" %[1]s  milliún"],
    [t!" %[1]s  billiún", t!" %[1]s  billiún", t!" %[1]s  billiún", t!" %[1]s  billiún", t!" %[1]s  billiún"],
    [t!" %[1]s  trilliún", t!" %[1]s  trilliún", t!" %[1]s  trilliún", t!" %[1]s  trilliún", t!" %[1]s  trilliún"],
    [t!"%[1]s quadrilliún", t!"%[1]s quadrilliún", t!"%[1]s quadrilliún", t!"%[1]s quadrilliún", t!"%[1]s quadrilliún"],
    [t!"%[1]s quintillion", t!"%[1]s quintillion", t!"%[1]s quintillion", t!"%[1]s quintillion", t!"%[1]s quintillion"],
    [t!"%[1]s sextillion", t!"%[1]s sextillion", t!"%[1]s sextillion", t!"%[1]s sextillion", t!"%[1]s sextillion"],
    [t!"%[1]s septillion", t!"%[1]s septillion", t!"%[1]s septillion", t!"%[1]s septillion", t!"%[1]s septillion"],
    [t!"%[1]s octillion", t!"%[1]s octillion", t!"%[1]s octillion", t!"%[1]s octillion", t!"%[1]s octillion"],
    [t!"%[1]s nonillion", t!"%[1]s nonillion", t!"%[1]s nonillion", t!"%[1]s nonillion", t!"%[1]s nonillion"],
    [t!"%[1]s decillion", t!"%[1]s decillion", t!"%[1]s decillion", t!"%[1]s decillion", t!"%[1]s decillion"],
    [t!"%[1]s googol", t!"%[1]s googol", t!"%[1]s googol", t!"%[1]s googol", t!"%[1]s googol"]]
  singular := [
    some t!"%[1]v ó shin", some t!"%[1]v as seo amach", some t!"%s KB", some t!"%s MB", some t!"%s GB", some t!"%s TB", some t!"%s PB", some t!"%vú", some t!"%vú", some t!"%vú", some t!"%vú", some t!"%vú", some t!"%vú", some t!"%vú", some t!"%vú", some t!"%vú", some t!"%vú", some t!"%vú"]

/-- /repo/humanize/locale/gd/django.po. -/
def counts_gd : Counts where
  locale := loc_gd
  plural := [
    [t!"%[1]v bliadhna", t!"%[1]v bhliadhna", t!"%[1]v bliadhnaichean", t!"%[1]v bliadhna"],
    [t!"%[1]v mhìos", t!"%[1]v mhìos", t!"%[1]v mìosan", t!"%[1]v mìos"],
    [t!"%[1]v seachdain", t!"%[1]v sheachdain", t!"%[1]v seachdainean", t!"%[1]v seachdain"],
    [t!"%[1]v latha", t!"%[1]v latha", t!"%[1]v làithean", t!"%[1]v latha"],
    [t!"%[1]v uair a thìde", t!"%[1]v uair a thìde", t!"%[1]v uairean a thìde", t!"%[1]v uair a thìde"],
    [t!"%[1]v mhionaid", t!"%[1]v mhionaid", t!"%[1]v mionaidean", t!"%[1]v mionaid"],
    [t!"%[1]v bhliadhna", t!"%[1]v bhliadhna", t!"%[1]v bliadhnaichean", t!"%[1]v bliadhna"],
    [t!"%[1]v mhìos", t!"%[1]v mhìos", t!"%[1]v mìosan", t!"%[1]v mìos"],
    [t!"%[1]v seachdain", t!"%[1]v sheachdain", t!"%[1]v seachdainean", t!"%[1]v seachdain"],
    [t!"%[1]v latha", t!"%[1]v latha", t!"%[1]v làithean", t!"%[1]v latha"],
    [t!"%[1]v uair a thìde", t!"%[1]v uair a thìde", t!"%[1]v uairean a thìde", t!"%[1]v uair a thìde"],
    [t!"%[1]v mhionaid", t!"%[1]v mhionaid", t!"%[1]v mionaidean", t!"%[1]v mionaid"],
    [t!"%[1]v bhliadhna", t!"%[1]v bhliadhna", t!"%[1]v bliadhnaichean", t!"%[1]v bliadhna"],
    [t!"%[1]v mhìos", t!"%[1]v mhìos", t!"%[1]v mìosan", t!"%[1]v mìos"],
    [t!"%[1]v seachdain", t!"%[1]v sheachdain", t!"%[1]v seachdainean", t!"%[1]v seachdain"],
    [t!"%[1]v latha", t!"%[1]v latha", t!"%[1]v làithean", t!"%[1]v latha"],
    [t!"%[1]v uair a thìde", t!"%[1]v uair a thìde", t!"%[1]v uairean a thìde", t!"%[1]v uair a thìde"],
    [t!"%[1]v mhionaid", t!"%[1]v mhionaid", t!"%[1]v mionaidean", t!"%[1]v mionaid"],
    [t!"%[1]v diog air ais", t!"%[1]v dhiog air ais", t!"%[1]v diogan air ais", t!"%[1]v diog air ais"],
    [t!"%[1]v mhionaid air ais", t!"%[1]v mhionaid air ais", t!"%[1]v mionaidean air ais", t!"%[1]v mionaid air ais"],
    [t!"%[1]v uair a thìde air ais", t!"%[1]v uair a thìde air ais", t!"%[1]v uairean a thìde air ais", t!"%[1]v uair a thìde air ais"],
    [t!"an ceann %[1]v diog", t!"an ceann %[1]v dhiog", t!"an ceann %[1]v diogan", t!"an ceann %[1]v diog"],
    [t!"an ceann %[1]v mhionaid", t!"an ceann %[1]v mhionaid", t!"an ceann %[1]v mionaidean", t!"an ceann %[1]v mionaid"],
    [t!"an ceann %[1]v uair a thìde", t!"an ceann %[1]v uair a thìde", t!"an ceann %[1]v uairean a thìde", t!"an ceann %[1]v uair a thìde"],
    [t!"%[1]d baidht", t!"%[1]d baidht", t!"%[1]d baidht", t!"%[1]d baidht"],
    [t!"%[1]s mhillean", t!"%[1]s mhillean", t!"%[1]s milleanan", t!"%[1]s millean"],
    [t!"%[1]s bhillean", t!"%[1]s bhillean", t!"%[1]s billeanan", t!"%[1]s billean"],
    [t!"%[1]s trillean", t!"%[1]s thrillean", t!"%[1]s trilleanan", t!"%[1]s trillean"],
    [t!"%[1]s quadrillean", t!"%[1]s quadrillean", t!"%[1]s quadrilleanan", t!"%[1]s quadrillean"],
    [t!"%[1]s quintillean", t!"%[1]s quintillean", t!"%[1]s quintilleanan", t!"%[1]s quintillean"],
    [t!"%[1]s sextillean", t!"%[1]s shextillean", t!"%[1]s sextilleanan", t!"%[1]s sextillean"],
    [t!"%[1]s septillean", t!"%[1]s sheptillean", t!"%[1]s septilleanan", t!"%[1]s septillean"],
    [t!"%[1]s octillean", t!"%[1]s octillean", t!"%[1]s octilleanan", t!"%[1]s octillean"],
    [t!"%[1]s nonillean", t!"%[1]s nonillean", t!"%[1]s nonilleanan", t!"%[1]s nonillean"],
    [t!"%[1]s decillean", t!"%[1]s dhecillean", t!"%[1]s decilleanan", t!"%[1]s decillean"],
    [t!"%[1]s ghoogol", t!"%[1]s ghoogol", t!"%[1]s googolan", t!"%[1]s googol"]]
  singular := [
    some t!"%[1]v air ais", some t!"an ceann %[1]v", some t!"%s KB", some t!"%s MB", some t!"%s GB", some t!"%s TB", some t!"%s PB", some t!"%vmh", some t!"%vmh", some t!"%vd", some t!"%vna", some t!"%vs", some t!"%vmh", some t!"%vmh", some t!"%vmh", some t!"%vmh", some t!"%vmh", some t!"%vmh"]

/-- /repo/humanize/locale/gl/django.po. -/
def counts_gl : Counts where
  locale := loc_gl
  plural := [
    [t!"%[1]v ano", t!"%[1]v anos"],
    [t!"%[1]v mes", t!"%[1]v meses"],
    [t!"%[1]v semana", t!"%[1]v semanas"],
    [t!"%[1]v día", t!"%[1]v días"],
    [t!"%[1]v hora", t!"%[1]v horas"],
    [t!"%[1]v minuto", t!"%[1]v minutos"],
    [t!"%[1]v ano", t!"%[1]v anos"],
    [t!"%[1]v mes", t!"%[1]v meses"],
    [t!"%[1]v semana", t!"%[1]v semanas"],
    [t!"%[1]v día", t!"%[1]v días"],
    [t!"%[1]v hora", t!"%[1]v horas"],
    [t!"%[1]v minuto", t!"%[1]v minutos"],
    [t!"%[1]v ano", t!"%[1]v anos"],
    [t!"%[1]v mes", t!"%[1]v meses"],
    [t!"%[1]v semana", t!"%[1]v semanas"],
    [t!"%[1]v día", t!"%[1]v días"],
    [t!"%[1]v hora", t!"%[1]v horas"],
    [t!"%[1]v minuto", t!"%[1]v minutos"],
    [t!"Fai un segundo", t!"Hai %[1]v segundos"],
    [t!"Fai un minuto", t!"Hai %[1]v minutos"],
    [t!"Fai unha hora", t!"Hai %[1]v horas"],
    [t!"Dentro dun segundo", t!"Dentro de %[1]v segundos"],
    [t!"Dentro dun minuto", t!"Dentro de %[1]v minutos"],
    [t!"Dentro dunha hora", t!"Dentro de %[1]v horas"],
    [t!"%[1]d byte", t!"%[1]d bytes"],
    [t!"%[1]s millón", t!"%[1]s millóns"],
    [t!"%[1]s mil millóns", t!"%[1]s mil millóns"],
    [t!"%[1]s billón", t!"%[1]s billóns"],
    [t!"%[1]s trillón", t!"%[1]s trillóns"],
    [t!"%[1]s cuadrillón", t!"%[1]s cuadrillóns"],
    [t!"%[1]s quintillón", t!"%[1]s quintillóns"],
    [t!"%[1]s sextillón", t!"%[1]s sextillóns"],
    [t!"%[1]s septillón", t!"%[1]s septillóns"],
    [t!"%[1]s octillón", t!"%[1]s octillóns"],
    [t!"%[1]s nonillón", t!"%[1]s nonillóns"],
    [t!"%[1]s gúgol", t!"%[1]s gúgols"]]
  singular := [
    some t!"hai %[1]v", some t!"dentro de %[1]v", some t!"%s KB", some t!"%s MB", some t!"%s GB", some t!"%s TB", some t!"%s PB", some t!"%vº", some t!"%vº", some t!"%vº", some t!"%vº", some t!"%vº", some t!"%vº", some t!"%vº", some t!"%vº", some t!"%vº", some t!"%vº", some t!"%vº"]

/-- /repo/humanize/locale/he/django.po. -/
def counts_he : Counts where
  locale := loc_he
  plural := [
    [t!"שנה", t!"שנתיים", t!"%[1]v שנים"],
    [t!"חודש", t!"חודשיים", t!"%[1]v חודשים"],
    [t!"שבוע", t!"שבועיים", t!"%[1]v שבועות"],
    [t!"יום", t!"יומיים", t!"%[1]v ימים"],
    [t!"שעה", t!"שעתיים", t!"%[1]v שעות"],
    [t!"דקה", t!"%[1]v דקות", t!"%[1]v דקות"],
    [t!"שנה", t!"שנתיים", t!"%[1]v שנים", t!"%[1]v שנים"],
    [t!"חודש", t!"חודשיים", t!"%[1]v חודשים", t!"%[1]v חודשים"],
    [t!"שבוע", t!"שבועיים", t!"%[1]v שבועות", t!"%[1]v שבועות"],
    [t!"יום", t!"יומיים", t!"%[1]v ימים", t!"%[1]v ימים"],
    [t!"שעה", t!"שעתיים", t!"%[1]v שעות", t!"%[1]v שעות"],
    [t!"דקה", t!"%[1]v דקות", t!"%[1]v דקות", t!"%[1]v דקות"],
    [t!"שנה", t!"שנתיים", t!"%[1]v שנים", t!"%[1]v שנים"],
    [t!"חודש", t!"חודשיים", t!"%[1]v חודשים", t!"%[1]v חודשים"],
    [t!"שבוע", t!"שבועיים", t!"%[1]v שבועות", t!"%[1]v שבועות"],
    [t!"יום", t!"יומיים", t!"%[1]v ימים", t!"%[1]v ימים"],
    [t!"שעה", t!"שעתיים", t!"%[1]v שעות", t!"%[1]v שעות"],
    [t!"דקה", t!"%[1]v דקות", t!"%[1]v דקות", t!"%[1]v דקות"],
    [t!"לפני שנייה", t!"לפני %[1]v שניות", t!"לפני %[1]v שניות", t!"לפני %[1]v שניות"],
    [t!"לפני דקה", t!"לפני %[1]v דקות", t!"לפני %[1]v דקות", t!"לפני %[1]v דקות"],
    [t!"לפני שעה", t!"לפני שעתיים", t!"לפני %[1]v שעות", t!"לפני %[1]v שעות"],
    [t!"בעוד שנייה", t!"בעוד %[1]v שניות", t!"בעוד %[1]v שניות", t!"בעוד %[1]v שניות"],
    [t!"בעוד דקה", t!"בעוד %[1]v דקות", t!"בעוד %[1]v דקות", t!"בעוד %[1]v דקות"],
    [t!"בעוד שעה", t!"בעוד שעתיים", t!"בעוד %[1]v שעות", t!"בעוד %[1]v שעות"],
    [t!"בית %[1]d ", t!"%[1]d בתים", t!"%[1]d בתים"],
    [t!"מיליון", t!"%[1]s מיליון", t!"%[1]s מיליון", t!"%[1]s מיליון"],
    [t!"מיליארד", t!"%[1]s מיליארד", t!"%[1]s מיליארד", t!"%[1]s מיליארד"],
    [t!"טריליון", t!"%[1]s טריליון", t!"%[1]s טריליון", t!"%[1]s טריליון"],
    [t!"קוודריליון", t!"%[1]s קוודריליון", t!"%[1]s קוודריליון", t!"%[1]s קוודריליון"],
    [t!"קווינטיליון", t!"%[1]s קווינטיליון", t!"%[1]s קווינטיליון", t!"%[1]s קווינטיליון"],
    [t!"סקסטיליון", t!"%[1]s סקסטיליון", t!"%[1]s סקסטיליון", t!"%[1]s סקסטיליון"],
    [t!"ספטיליון", t!"%[1]s ספטיליון", t!"%[1]s ספטיליון", t!"%[1]s ספטיליון"],
    [t!"אוקטיליון", t!"%[1]s אוקטיליון", t!"%[1]s אוקטיליון", t!"%[1]s אוקטיליון"],
    [t!"נוניליון", t!"%[1]s נוניליון", t!"%[1]s נוניליון", t!"%[1]s נוניליון"],
    [t!"דציליון", t!"%[1]s דציליון", t!"%[1]s דציליון", t!"%[1]s דציליון"],
    [t!"גוגול", t!"%[1]s גוגול", t!"%[1]s גוגול", t!"%[1]s גוגול"]]
  singular := [
    some t!"לפני %[1]v", some t!"בעוד %[1]v", some t!"%s ק\"ב", some t!"%s מ\"ב", some t!"%s ג\"ב", some t!"%s ט\"ב", some t!"%s פ\"ב", some t!"ה־%v", some t!"ה־%v", some t!"ה־%v", some t!"ה־%v", some t!"ה־%v", some t!"ה־%v", some t!"ה־%v", some t!"ה־%v", some t!"ה־%v", some t!"ה־%v", some t!"ה־%v"]

/-- /repo/humanize/locale/hi/django.po. -/
def counts_hi : Counts where
  locale := loc_hi
  plural := [
    [t!"", t!""],
    [t!"", t!""],
    [t!"", t!""],
    [t!"", t!""],
    [t!"", t!""],
    [t!"", t!""],
    [],
    [],
    [],
    [],
    [],
    [],
    [],
    [],
    [],
    [],
    [],
    [],
    [t!"", t!""],
    [t!"", t!""],
    [t!"", t!""],
    [t!"", t!""],
    [t!"", t!""],
    [t!"", t!""],
    [t!"%[1]d बाइट", t!"%[1]d बाइट"],
    [t!"%[1]s मिलियन", t!"%[1]s मिलियन"],
    [t!"%[1]s बिलियन", t!"%[1]s बिलियन"],
    [t!"%[1]s खरब", t!"%[1]s खरब"],
    [t!"%[1]s करोड़ शंख", t!"%[1]s करोड़ शंख"],
    [t!"%[1]s कुइनतिलिअन ", t!"%[1]s कुइनतिलिअन "],
    [t!"%[1]s सेक्सतिलियन", t!"%[1]s सेक्सतिलियन"],
    [t!"%[1]s सेपतिलियन ", t!"%[1]s सेपतिलियन "],
    [t!"%[1]s ओकतिलियन ", t!"%[1]s ओकतिलियन "],
    [t!"%[1]s नोनिलियन", t!"%[1]s नोनिलियन"],
    [t!"%[1]s देसीलियन", t!"%[1]s देसीलियन"],
    [t!"%[1]s गोगोल", t!"%[1]s गोगोल"]]
  singular := [
    none, none, some t!"%s केबी ", some t!"%s मेबी ", some t!"%s जीबी ", some t!"%s टीबी", some t!"%s पीबी", none, none, none, none, none, none, none, none, none, none, none]

/-- /repo/humanize/locale/hr/django.po. -/
def counts_hr : Counts where
  locale := loc_hr
  plural := [
    [],
    [],
    [],
    [],
    [],
    [],
    [],
    [],
    [],
    [],
    [],
    [],
    [],
    [],
    [],
    [],
    [],
    [],
    [t!"prije %[1]v sekunde", t!"prije %[1]v sekundi", t!"prije %[1]v sekundi"],
    [t!"prije %[1]v minute", t!"prije %[1]v minute", t!"prije %[1]v minuta"],
    [t!"", t!"", t!""],
    [t!"", t!"", t!""],
    [t!"", t!"", t!""],
    [t!"", t!"", t!""],
    [t!"%[1]d byte", t!"%[1]d byte-a", t!"%[1]d byte-a"],
    [t!"", t!"", t!""],
    [t!"", t!"", t!""],
    [t!"", t!"", t!""],
    [t!"", t!"", t!""],
    [t!"", t!"", t!""],
    [t!"", t!"", t!""],
    [t!"", t!"", t!""],
    [t!"", t!"", t!""],
    [t!"", t!"", t!""],
    [t!"", t!"", t!""],
    [t!"", t!"", t!""]]
  singular := [
    none, none, some t!"%s KB", some t!"%s MB", some t!"%s GB", some t!"%s TB", some t!"%s PB", none, none, none, none, none, none, none, none, none, none, none]

/-- /repo/humanize/locale/hsb/django.po. -/
def counts_hsb : Counts where
  locale := loc_hsb
  plural := [
    [t!"%[1]v lěto", t!"%[1]vlěće", t!"%[1]v lěta", t!"%[1]v lět"],
    [t!"%[1]v měsac", t!"%[1]v měsacaj", t!"%[1]v měsacy", t!"%[1]v měsacow"],
    [t!"%[1]v tydźeń", t!"%[1]v njedźeli", t!"%[1]v njedźele", t!"%[1]v njedźel"],
    [t!"%[1]v dźeń", t!"%[1]v dnjej", t!"%[1]v dny", t!"%[1]v dnjow"],
    [t!"%[1]v hodźina", t!"%[1]v hodźinje", t!"%[1]v hodźiny", t!"%[1]v hodźin"],
    [t!"%[1]v mjeńšina", t!"%[1]v mjeńšinje", t!"%[1]v mjeńšiny", t!"%[1]v mjeńšin"],
    [t!"%[1]v lěto", t!"%[1]v lěće", t!"%[1]v lěta", t!"%[1]v lět"],
    [t!"%[1]v měsac", t!"%[1]v měsacaj", t!"%[1]v měsacy", t!"%[1]v měsacow"],
    [t!"%[1]v tydźeń", t!"%[1]v njedźeli", t!"%[1]v njedźele", t!"%[1]v njedźel"],
    [t!"%[1]v dźeń", t!"%[1]v dnjej", t!"%[1]v dny", t!"%[1]v dnjow"],
    [t!"%[1]v hodźina", t!"%[1]v hodźinje", t!"%[1]v hodźiny", t!"%[1]v hodźin"],
    [t!"%[1]v mjeńšina", t!"%[1]v mjeńšinje", t!"%[1]v mjeńšiny", t!"%[1]v mjeńšin"],
    [t!"%[1]v lěto", t!"%[1]v lěće", t!"%[1]v lěta", t!"%[1]v lět"],
    [t!"%[1]v měsac", t!"%[1]v měsacaj", t!"%[1]v měsacy", t!"%[1]v měsacow"],
    [t!"%[1]v tydźeń", t!"%[1]v njedźeli", t!"%[1]v njedźele", t!"%[1]v njedźel"],
    [t!"%[1]v dźeń", t!"%[1]v dnjej", t!"%[1]v dny", t!"%[1]v dnjow"],
    [t!"%[1]v hodźina", t!"%[1]v hodźinje", t!"%[1]v hodźiny", t!"%[1]v hodźin"],
    [t!"%[1]v mjeńšina", t!"%[1]v mjeńšinje", t!"%[1]v mjeńšiny", t!"%[1]v mjeńšin"],
    [t!"před %[1]v sekundu", t!"před %[1]v sekundomaj", t!"před %[1]v sekundami", t!"před %[1]v sekundami"],
    [t!"před %[1]v mjeńšinu", t!"před %[1]v mjeńšinomaj", t!"před %[1]v mjeńšinami", t!"před %[1]v mjeńšinami"],
    [t!"před %[1]v hodźinu", t!"před %[1]v hodźinomaj", t!"před %[1]v hodźinami", t!"před %[1]v hodźinami"],
    [t!"za %[1]v sekundu", t!"za %[1]v sekundźe", t!"za %[1]v sekundy", t!"za %[1]v sekundow"],
    [t!"za %[1]v mjeńšinu", t!"za %[1]v mjeńšinje", t!"za %[1]v mjeńšiny", t!"za %[1]v mjeńšin"],
    [t!"za %[1]v hodźinu", t!"za %[1]v hodźinje", t!"za %[1]v hodźiny", t!"za %[1]v hodźin"],
    [t!"%[1]d bajt", t!"%[1]d bajtaj", t!"%[1]d bajty", t!"%[1]d bajtow"],
    [t!"%[1]s milion", t!"%[1]s milionaj", t!"%[1]s miliony", t!"%[1]s milionow"],
    [t!"%[1]s miliarda", t!"%[1]s miliardźe", t!"%[1]s miliardy", t!"%[1]s miliardow"],
    [t!"%[1]s bilion", t!"%[1]s bilionaj", t!"%[1]s biliony", t!"%[1]s bilionow"],
    [t!"%[1]s biliarda", t!"%[1]s biliardźe", t!"%[1]s biliardy", t!"%[1]s biliardow"],
    [t!"%[1]s trilion", t!"%[1]s trilionaj", t!"%[1]s triliony", t!"%[1]s trilionow"],
    [t!"%[1]s triliarda", t!"%[1]s triliardźe", t!"%[1]s triliardy", t!"%[1]s triliardow"],
    [t!"%[1]s kwadrilion", t!"%[1]s kwadrilionaj", t!"%[1]s kwadriliony", t!"%[1]s kwadrilionow"],
    [t!"%[1]s kwadriliarda", t!"%[1]s kwadriliardźe", t!"%[1]s kwadriliardy", t!"%[1]s kwadriliardow"],
    [t!"%[1]s kwintilion", t!"%[1]s kwintilionaj", t!"%[1]s kwintiliony", t!"%[1]s kwintilionow"],
    [t!"%[1]s kwintiliarda", t!"%[1]s kwintiliardźe", t!"%[1]s kwintiliardy", t!"%[1]s kwintiliardow"],
    [t!"%[1]s sedeciliarda", t!"%[1]s sedeciliardźe", t!"%[1]s sedeciliardy", t!"%[1]s sedeciliardow"]]
  singular := [
    some t!"Před %[1]v", some t!"%[1]v wotnětka", some t!"%s KB", some t!"%s MB", some t!"%s GB", some t!"%s TB", some t!"%s PB", some t!"%v.", some t!"%v.", some t!"%v.", some t!"%v.", some t!"%v.", some t!"%v.", some t!"%v.", some t!"%v.", some t!"%v.", some t!"%v.", some t!"%v."]

/-- /repo/humanize/locale/hu/django.po. -/
def counts_hu : Counts where
  locale := loc_hu
  plural := [
    [t!"%[1]v év", t!"%[1]v év"],
    [t!"%[1]v hónap", t!"%[1]v hónap"],
    [t!"%[1]v hét", t!"%[1]v hét"],
    [t!"%[1]v nap", t!"%[1]v nap"],
    [t!"%[1]v óra", t!"%[1]v óra"],
    [t!"%[1]v perc", t!"%[1]v perc"],
    [t!"%[1]v évvel", t!"%[1]v évvel"],
    [t!"%[1]v hónappal", t!"%[1]v hónappal"],
    [t!"%[1]v héttel", t!"%[1]v héttel"],
    [t!"%[1]v nappal", t!"%[1]v nappal"],
    [t!"%[1]v órával", t!"%[1]v órával"],
    [t!"%[1]v perccel", t!"%[1]v perccel"],
    [t!"%[1]v év", t!"%[1]v év"],
    [t!"%[1]v hónap", t!"%[1]v hónap"],
    [t!"%[1]v hét", t!"%[1]v hét"],
    [t!"%[1]v nap", t!"%[1]v nap"],
    [t!"%[1]v óra", t!"%[1]v óra"],
    [t!"%[1]v perc", t!"%[1]v perc"],
    [t!"egy másodperce", t!"%[1]v másodperce"],
    [t!"egy perce", t!"%[1]v perce"],
    [t!"egy órája", t!"%[1]v órája"],
    [t!"egy másodperc múlva", t!"%[1]v másodperc múlva"],
    [t!"egy perc múlva", t!"%[1]v perc múlva"],
    [t!"egy óra múlva", t!"%[1]v óra múlva"],
    [t!"%[1]d bájt", t!"%[1]d bájt"],
    [t!"%[1]s millió", t!"%[1]s millió"],
    [t!" %[1]s milliárd", t!" %[1]s milliárd"],
    [t!"%[1]s billió", t!"%[1]s billió"],
    [t!"%[1]s billiárd", t!"%[1]s billiárd"],
    [t!"%[1]s trillió", t!"%[1]s trillió"],
    [t!"%[1]s trilliárd", t!"%[1]s trilliárd"],
    [t!"%[1]s kvadrillió", t!"%[1]s kvadrillió"],
    [t!"%[1]s kvadrilliárd", t!"%[1]s kvadrilliárd"],
    [t!"%[1]s kvintillió", t!"%[1]s kvintillió"],
    [t!"%[1]s kvintilliárd", t!"%[1]s kvintilliárd"],
    [t!"%[1]s googol", t!"%[1]s googol"]]
  singular := [
    some t!" %[1]v ezelőtt", some t!"%[1]v múlva", some t!"%s KB", some t!"%s MB", some t!"%s GB", some t!"%s TB", some t!"%s PB", some t!"%v.", some t!"%v.", some t!"%v.", some t!"%v.", some t!"%v.", some t!"%v.", some t!"%v.", some t!"%v.", some t!"%v.", some t!"%v.", some t!"%v."]

/-- /repo/humanize/locale/hy/django.po. -/
def counts_hy : Counts where
  locale := loc_hy
  plural := [
    [],
    [],
    [],
    [],
    [],
    [],
    [t!"%[1]v տարի", t!"%[1]v տարի"],
    [t!"%[1]v ամիս", t!"%[1]v ամիս"],
    [t!"%[1]v շաբաթ", t!"%[1]v շաբաթ"],
    [t!"%[1]v օր", t!"%[1]v օր"],
    [t!"%[1]v ժամ", t!"%[1]v ժամ"],
    [t!"%[1]v րոպե", t!"%[1]v րոպե"],
    [t!"%[1]v տարի", t!"%[1]v տարի"],
    [t!"%[1]v ամիս", t!"%[1]v ամիս"],
    [t!"%[1]v շաբաթ", t!"%[1]v շաբաթ"],
    [t!"%[1]v օր", t!"%[1]v օր"],
    [t!"%[1]v ժամ", t!"%[1]v ժամ"],
    [t!"%[1]v րոպե", t!"%[1]v րոպե"],
    [t!"մեկ վայրկյան առաջ", t!"%[1]v վայրկյան առաջ"],
    [t!"մեկ րոպե առաջ", t!"%[1]v րոպե առաջ"],
    [t!"մեկ ժամ առաջ", t!"%[1]v ժամ առաջ"],
    [t!"մեկ վայրկյանից", t!"%[1]v վայրկյանից"],
    [t!"մեկ րոպե անց", t!"%[1]v րոպե անց"],
    [t!"մեկ ժամ հետո", t!"%[1]v ժամ հետո"],
    [t!"%[1]d բայթ", t!"%[1]d բայթ"],
    [t!"%[1]s միլիոն", t!"%[1]s միլիոն"],
    [t!"%[1]s միլիարդ", t!"%[1]s միլիարդ"],
    [t!"%[1]s տրիլիոն", t!"%[1]s տրիլիոն"],
    [t!"%[1]s կվադրիլիոն", t!"%[1]s կվադրիլիոն"],
    [t!"", t!""],
    [t!"", t!""],
    [t!"", t!""],
    [t!"", t!""],
    [t!"", t!""],
    [t!"", t!""],
    [t!"", t!""]]
  singular := [
    some t!"%[1]v առաջ", some t!"%[1]v հետո", some t!"%s ԿԲ", some t!"%s ՄԲ", some t!"%s ԳԲ", some t!"%s ՏԲ", some t!"%s ՊԲ", some t!"%vրդ", some t!"%vրդ", some t!"%vրդ", some t!"%vրդ", some t!"%vրդ", some t!"%vրդ", some t!"%vրդ", some t!"%vրդ", some t!"%vրդ", some t!"%vրդ", some t!"%vրդ"]

/-- /repo/humanize/locale/ia/django.po. -/
def counts_ia : Counts where
  locale := loc_ia
  plural := [
    [t!"", t!""],
    [t!"", t!""],
    [t!"", t!""],
    [t!"", t!""],
    [t!"", t!""],
    [t!"", t!""],
    [],
    [],
    [],
    [],
    [],
    [],
    [],
    [],
    [],
    [],
    [],
    [],
    [t!"un secunda retro", t!"%[1]v secundas retro"],
    [t!"un minuta retro", t!"%[1]v minutas retro"],
    [t!"un hora retro", t!"%[1]v horas retro"],
    [t!"un secunda desde ora", t!"%[1]v secundas desde ora"],
    [t!"un minuta desde ora", t!"%[1]v minutas desde ora"],
    [t!"un hora desde ora", t!"%[1]v horas desde ora"],
    [t!"%[1]d byte", t!"%[1]d bytes"],
    [t!"%[1]s million", t!"%[1]s milliones"],
    [t!"%[1]s milliardo", t!"%[1]s milliardos"],
    [t!"%[1]s billion", t!"%[1]s billiones"],
    [t!"%[1]s billiardo", t!"%[1]s billiardos"],
    [t!"%[1]s trillion", t!"%[1]s trilliones"],
    [t!"%[1]s trilliardo", t!"%[1]s trilliardos"],
    [t!"%[1]s quadrillion", t!"%[1]s quadrilliones"],
    [t!"%[1]s quadrilliardo", t!"%[1]s quadrilliardos"],
    [t!"%[1]s quintillion", t!"%[1]s quintilliones"],
    [t!"%[1]s quintilliardo", t!"%[1]s quintilliardos"],
    [t!"%[1]s googol", t!"%[1]s googoles"]]
  singular := [
    none, none, some t!"%s KB", some t!"%s MB", some t!"%s GB", some t!"%s TB", some t!"%s PB", none, none, none, none, none, none, none, none, none, none, none]

/-- /repo/humanize/locale/id/django.po. -/
def counts_id : Counts where
  locale := loc_id
  plural := [
    [t!"%[1]v tahun", t!""],
    [t!"%[1]v bulan", t!""],
    [t!"%[1]v minggu", t!""],
    [t!"%[1]v hari", t!""],
    [t!"%[1]v jam", t!""],
    [t!"%[1]v menit", t!""],
    [t!"%[1]v tahun", t!""],
    [t!"%[1]v bulan", t!""],
    [t!"%[1]v minggu", t!""],
    [t!"%[1]v hari", t!""],
    [t!"%[1]v jam", t!""],
    [t!"%[1]v menit", t!""],
    [t!"%[1]v tahun", t!""],
    [t!"%[1]v bulan", t!""],
    [t!"%[1]v minggu", t!""],
    [t!"%[1]v hari", t!""],
    [t!"%[1]v jam", t!""],
    [t!"%[1]v menit", t!""],
    [t!"%[1]v detik yang lalu", t!""],
    [t!"%[1]v menit yang lalu", t!""],
    [t!"%[1]v jam yang lalu", t!""],
    [t!"%[1]v detik dari sekarang", t!""],
    [t!"%[1]v menit dari sekarang", t!""],
    [t!"%[1]v jam dari sekarang", t!""],
    [t!"%[1]d bita", t!""],
    [t!"%[1]s juta", t!""],
    [t!"%[1]s miliar", t!""],
    [t!"%[1]s triliun", t!""],
    [t!"%[1]s kuadriliun", t!""],
    [t!"%[1]s kuintiliun", t!""],
    [t!"%[1]s sekstiliun", t!""],
    [t!"%[1]s septiliun", t!""],
    [t!"%[1]s oktiliun", t!""],
    [t!"%[1]s noniliun", t!""],
    [t!"%[1]s desiliun", t!""],
    [t!"%[1]s googol", t!""]]
  singular := [
    some t!"%[1]v yang lalu", some t!"%[1]v dari sekarang", some t!"%s KB", some t!"%s MB", some t!"%s GB", some t!"%s TB", some t!"%s PB", some t!"ke-%v", some t!"ke-%v", some t!"ke-%v", some t!"ke-%v", some t!"ke-%v", some t!"ke-%v", some t!"ke-%v", some t!"ke-%v", some t!"ke-%v", some t!"ke-%v", some t!"ke-%v"]

/-- /repo/humanize/locale/ig/django.po. -/
def counts_ig : Counts where
  locale := loc_ig
  plural := [
    [],
    [],
    [],
    [],
    [],
    [],
    [],
    [],
    [],
    [],
    [],
    [],
    [],
    [],
    [],
    [],
    [],
    [],
    [],
    [],
    [],
    [],
    [],
    [],
    [t!"%[1]d bytes", t!""],
    [],
    [],
    [],
    [],
    [],
    [],
    [],
    [],
    [],
    [],
    []]
  singular := [
    none, none, some t!"%s KB", some t!"%s MB", some t!"%s GB", some t!"%s TB", some t!"%s PB", none, none, none, none, none, none, none, none, none, none, none]

/-- /repo/humanize/locale/io/django.po. -/
def counts_io : Counts where
  locale := loc_io
  plural := [
    [],
    [],
    [],
    [],
    [],
    [],
    [],
    [],
    [],
    [],
    [],
    [],
    [],
    [],
    [],
    [],
    [],
    [],
    [t!"", t!""],
    [t!"", t!""],
    [t!"", t!""],
    [t!"", t!""],
    [t!"", t!""],
    [t!"", t!""],
    [t!"%[1]d byte", t!"%[1]d bytes"],
    [t!"", t!""],
    [t!"", t!""],
    [t!"", t!""],
    [t!"", t!""],
    [t!"", t!""],
    [t!"", t!""],
    [t!"", t!""],
    [t!"", t!""],
    [t!"", t!""],
    [t!"", t!""],
    [t!"", t!""]]
  singular := [
    none, none, some t!"%s KB", some t!"%s MB", some t!"%s GB", some t!"%s TB", some t!"%s PB", none, none, none, none, none, none, none, none, none, none, none]

/-- /repo/humanize/locale/is/django.po. -/
def counts_is : Counts where
  locale := loc_is
  plural := [
    [t!"", t!""],
    [t!"", t!""],
    [t!"", t!""],
    [t!"", t!""],
    [t!"", t!""],
    [t!"", t!""],
    [],
    [],
    [],
    [],
    [],
    [],
    [],
    [],
    [],
    [],
    [],
    [],
    [t!"", t!""],
    [t!"", t!""],
    [t!"", t!""],
    [t!"", t!""],
    [t!"", t!""],
    [t!"", t!""],
    [t!"%[1]d bæti", t!"%[1]d bæti"],
    [t!"%[1]s milljón", t!"%[1]s milljónir"],
    [t!"%[1]s milljarður", t!"%[1]s milljarðar"],
    [t!"%[1]s billjón", t!"%[1]s billjónir"],
    [t!"%[1]s billjarður", t!"%[1]s billjarðar"],
    [t!"%[1]s trilljón", t!"%[1]s trilljónir"],
    [t!"%[1]s trilljarður", t!"%[1]s trilljarðar"],
    [t!"%[1]s kvaðrilljón", t!"%[1]s kvaðrilljónir"],
    [t!"%[1]s kvaðrilljarður", t!"%[1]s kvaðrilljarðar"],
    [t!"%[1]s kvintilljón", t!"%[1]s kvintilljónir"],
    [t!"%[1]s kvintilljarður", t!"%[1]s kvintilljarðar"],
    [t!"%[1]s googol", t!"%[1]s googol"]]
  singular := [
    some t!"", some t!"", some t!"%s KB", some t!"%s MB", some t!"%s GB", some t!"%s TB", some t!"%s PB", some t!"%v.", some t!"%v.", some t!"%v.", some t!"%v.", some t!"%v.", some t!"%v.", some t!"%v.", some t!"%v.", some t!"%v.", some t!"%v.", some t!"%v."]

/-- /repo/humanize/locale/it/django.po. -/
def counts_it : Counts where
  locale := loc_it
  plural := [
    [t!"%[1]v anno", t!"%[1]v anni", t!"%[1]v anni"],
    [t!"%[1]v mese", t!"%[1]v mesi", t!"%[1]v mesi"],
    [t!"%[1]v settimana", t!"%[1]v settimane", t!"%[1]v settimane"],
    [t!"%[1]v giorno", t!"%[1]v giorni", t!"%[1]v giorni"],
    [t!"%[1]v ora", t!"%[1]v ore", t!"%[1]v ore"],
    [t!"%[1]v minuto", t!"%[1]v minuti", t!"%[1]v minuti"],
    [t!"%[1]v anno", t!"%[1]v anni", t!"%[1]v anni"],
    [t!"%[1]v mese", t!"%[1]v mesi", t!"%[1]v mesi"],
    [t!"%[1]v settimana", t!"%[1]v settimane", t!"%[1]v settimane"],
    [t!"%[1]v giorno", t!"%[1]v giorni", t!"%[1]v giorni"],
    [t!"%[1]v ora", t!"%[1]v ore", t!"%[1]v ore"],
    [t!"%[1]v minuto", t!"%[1]v minuti", t!"%[1]v minuti"],
    [t!"%[1]v anno", t!"%[1]v anni", t!"%[1]v anni"],
    [t!"%[1]v mese", t!"%[1]v mesi", t!"%[1]v mesi"],
    [t!"%[1]v settimana", t!"%[1]v settimane", t!"%[1]v settimane"],
    [t!"%[1]v giorno", t!"%[1]v giorni", t!"%[1]v giorni"],
    [t!"%[1]v ora", t!"%[1]v ore", t!"%[1]v ore"],
    [t!"%[1]v minuto", t!"%[1]v minuti", t!"%[1]v minuti"],
    [t!"un secondo fa", t!"%[1]v secondi fa", t!"%[1]v secondi fa"],
    [t!"un minuto fa", t!"%[1]v minuti fa", t!"%[1]v minuti fa"],
    [t!"un ora fa", t!"%[1]v ore fa", t!"%[1]v ore fa"],
    [t!"tra un secondo", t!"tra %[1]v secondi", t!"tra %[1]v secondi"],
    [t!"tra un minuto", t!"tra %[1]v minuti", t!"tra %[1]v minuti"],
    [t!"tra un'ora", t!"tra %[1]v ore", t!"tra %[1]v ore"],
    [t!"%[1]d byte", t!"%[1]d bytes", t!"%[1]d bytes"],
    [t!"%[1]s milione", t!"%[1]s milioni", t!"%[1]s milioni"],
    [t!"%[1]s miliardo", t!"%[1]s miliardi", t!"%[1]s miliardi"],
    [t!"%[1]s migliaio di miliardi", t!"%[1]s migliaia di miliardi", t!"%[1]s migliaia di miliardi"],
    [t!"%[1]s milione di miliardi", t!"%[1]s milioni di miliardi", t!"%[1]s milioni di miliardi"],
    [t!"%[1]s miliardo di miliardi", t!"%[1]s miliardi di miliardi", t!"%[1]s miliardi di miliardi"],
    [t!"%[1]s migliaio di miliardi di miliardi", t!"%[1]s migliaia di miliardi di miliardi", t!"%[1]s migliaia di miliardi di miliardi"],
    [t!"%[1]s milione di miliardi di miliardi", t!"%[1]s milioni di miliardi di miliardi", t!"%[1]s milioni di miliardi di miliardi"],
    [t!"%[1]s miliardo di miliardi di miliardi", t!"%[1]s miliardi di miliardi di miliardi", t!"%[1]s miliardi di miliardi di miliardi"],
    [t!"%[1]s migliaio di miliardi di miliardi di miliardi", t!"%[1]s migliaia di miliardi di miliardi di miliardi", t!"%[1]s migliaia di miliardi di miliardi di miliardi"],
    [t!"%[1]s milione di miliardi di miliardi di miliardi", t!"%[1]s milioni di miliardi di miliardi di miliardi", t!"%[1]s milioni di miliardi di miliardi di miliardi"],
    [t!"%[1]s googol", t!"%[1]s googol", t!"%[1]s googol"]]
  singular := [
    some t!"%[1]v fa", some t!"%[1]v da adesso", some t!"%s KB", some t!"%s MB", some t!"%s GB", some t!"%s TB", some t!"%s PB", some t!"%vesimo", some t!"%vesimo", some t!"%vesimo", some t!"%vesimo", some t!"%vesimo", some t!"%vesimo", some t!"%vesimo", some t!"%vesimo", some t!"%vesimo", some t!"%vesimo", some t!"%vesimo"]

/-- /repo/humanize/locale/ja/django.po. -/
def counts_ja : Counts where
  locale := loc_ja
  plural := [
    [t!"%[1]v年", t!""],
    [t!"%[1]vヶ月", t!""],
    [t!"%[1]v週間", t!""],
    [t!"%[1]v日", t!""],
    [t!"%[1]v時間", t!""],
    [t!"%[1]v分", t!""],
    [t!"%[1]v年", t!""],
    [t!"%[1]vヶ月", t!""],
    [t!"%[1]v週間", t!""],
    [t!"%[1]v日", t!""],
    [t!"%[1]v時間", t!""],
    [t!"%[1]v分", t!""],
    [t!"%[1]v年", t!""],
    [t!"%[1]vヶ月", t!""],
    [t!"%[1]v週間", t!""],
    [t!"%[1]v日", t!""],
    [t!"%[1]v時間", t!""],
    [t!"%[1]v分", t!""],
    [t!"%[1]v秒前", t!""],
    [t!"%[1]v分前", t!""],
    [t!"%[1]v時間前", t!""],
    [t!"今から%[1]v秒", t!""],
    [t!"今から%[1]v分", t!""],
    [t!"今から%[1]v時間", t!""],
    [t!"%[1]d バイト", t!""],
    [t!"%[1]s ミリオン", t!""],
    [t!"%[1]s ビリオン", t!""],
    [t!"%[1]s トリリオン", t!""],
    [t!" %[1]s クァドリリオン", t!""],
    [t!"%[1]s クインテリオン", t!""],
    [t!"%[1]s セクスティリオン", t!""],
    [t!"%[1]s セプティリオン", t!""],
    [t!"%[1]s オクティリオン", t!""],
    [t!"%[1]s ノニリオン", t!""],
    [t!"%[1]s デシリオン", t!""],
    [t!"%[1]s グーゴル", t!""]]
  singular := [
    some t!"%[1]v前", some t!"今から%[1]v", some t!"%s KB", some t!"%s MB", some t!"%s GB", some t!"%s TB", some t!"%s PB", some t!"%v番目", some t!"%v番目", some t!"%v番目", some t!"%v番目", some t!"%v番目", some t!"%v番目", some t!"%v番目", some t!"%v番目", some t!"%v番目", some t!"%v番目", some t!"%v番目"]

/-- /repo/humanize/locale/ka/django.po. -/
def counts_ka : Counts where
  locale := loc_ka
  plural := [
    [],
    [],
    [],
    [],
    [],
    [],
    [],
    [],
    [],
    [],
    [],
    [],
    [],
    [],
    [],
    [],
    [],
    [],
    [t!"%[1]v წამის წინ", t!"%[1]v წამის წინ"],
    [t!"%[1]v წუთის წინ", t!"%[1]v წუთის წინ"],
    [t!"%[1]v საათის წინ", t!"%[1]v საათის წინ"],
    [t!"%[1]v წამში", t!"%[1]v წამში"],
    [t!"%[1]v წუთში", t!"%[1]v წუთში"],
    [t!"%[1]v საათში", t!"%[1]v საათში"],
    [t!"%[1]d ბაიტი", t!"%[1]d ბაიტი"],
    [t!"%[1]s მილიონი", t!"%[1]s მილიონი"],
    [t!"%[1]s მილიარდი", t!"%[1]s მილიარდი"],
    [t!"%[1]s ტრილიონი", t!"%[1]s ტრილიონი"],
    [t!"%[1]s კვადრილიონი", t!"%[1]s კვადრილიონი"],
    [t!"%[1]s კვინტილიონი", t!"%[1]s კვინტილიონი"],
    [t!"%[1]s სექსტილიონი", t!"%[1]s სექსტილიონი"],
    [t!"%[1]s სეპტილიონი", t!"%[1]s სეპტილიონი"],
    [t!"%[1]s ოქტილიონი", t!"%[1]s ოქტილიონი"],
    [t!"%[1]s ნონილიონი", t!"%[1]s ნონილიონი"],
    [t!"%[1]s დეცილიონი", t!"%[1]s დეცილიონი"],
    [t!"%[1]s გუგოლი", t!"%[1]s გუგოლი"]]
  singular := [
    some t!"", some t!"", some t!"%s კბ", some t!"%s მბ", some t!"%s გბ", some t!"%s ტბ", some t!"%s პბ", some t!"", some t!"", some t!"", some t!"", some t!"", some t!"", some t!"", some t!"", some t!"", some t!"", some t!""]

/-- /repo/humanize/locale/kab/django.po. -/
def counts_kab : Counts where
  locale := loc_kab
  plural := [
    [],
    [],
    [],
    [],
    [],
    [],
    [],
    [],
    [],
    [],
    [],
    [],
    [],
    [],
    [],
    [],
    [],
    [],
    [],
    [],
    [],
    [],
    [],
    [],
    [t!"", t!""],
    [],
    [],
    [],
    [],
    [],
    [],
    [],
    [],
    [],
    [],
    []]
  singular := [
    none, none, some t!"%s KAṬ", some t!"%s MAṬ", some t!"%s GAṬ", some t!"%s TAṬ", some t!"%s PAṬ", none, none, none, none, none, none, none, none, none, none, none]

/-- /repo/humanize/locale/kk/django.po. -/
def counts_kk : Counts where
  locale := loc_kk
  plural := [
    [],
    [],
    [],
    [],
    [],
    [],
    [],
    [],
    [],
    [],
    [],
    [],
    [],
    [],
    [],
    [],
    [],
    [],
    [t!"", t!""],
    [t!"", t!""],
    [t!"", t!""],
    [t!"", t!""],
    [t!"", t!""],
    [t!"", t!""],
    [t!"%[1]d байт", t!"%[1]d байт"],
    [t!"%[1]s миллион", t!"%[1]s миллион"],
    [t!"%[1]s миллиард", t!"%[1]s миллиард"],
    [t!"%[1]s trillion", t!"%[1]s trillion"],
    [t!"%[1]s квадриллион", t!"%[1]s квадриллион"],
    [t!"%[1]s квинтиллион", t!"%[1]s квинтиллион"],
    [t!"", t!""],
    [t!"", t!""],
    [t!"", t!""],
    [t!"", t!""],
    [t!"", t!""],
    [t!"", t!""]]
  singular := [
    some t!"", some t!"", some t!"%s КБ", some t!"%s МБ", some t!"%s ГБ", some t!"%s ТБ", some t!"%s ПБ", some t!"", some t!"", some t!"", some t!"", some t!"", some t!"", some t!"", some t!"", some t!"", some t!"", some t!""]

/-- /repo/humanize/locale/km/django.po. -/
def counts_km : Counts where
  locale := loc_km
  plural := [
    [t!"", t!""],
    [t!"", t!""],
    [t!"", t!""],
    [t!"", t!""],
    [t!"", t!""],
    [t!"", t!""],
    [],
    [],
    [],
    [],
    [],
    [],
    [],
    [],
    [],
    [],
    [],
    [],
    [t!"", t!""],
    [t!"", t!""],
    [t!"", t!""],
    [t!"", t!""],
    [t!"", t!""],
    [t!"", t!""],
    [t!"", t!""],
    [t!"", t!""],
    [t!"", t!""],
    [t!"", t!""],
    [t!"", t!""],
    [t!"", t!""],
    [t!"", t!""],
    [t!"", t!""],
    [t!"", t!""],
    [t!"", t!""],
    [t!"", t!""],
    [t!"", t!""]]
  singular := [
    none, none, some t!"", some t!"", some t!"", some t!"", some t!"", none, none, none, none, none, none, none, none, none, none, none]

/-- /repo/humanize/locale/kn/django.po. -/
def counts_kn : Counts where
  locale := loc_kn
  plural := [
    [],
    [],
    [],
    [],
    [],
    [],
    [],
    [],
    [],
    [],
    [],
    [],
    [],
    [],
    [],
    [],
    [],
    [],
    [t!"", t!""],
    [t!"", t!""],
    [t!"", t!""],
    [t!"", t!""],
    [t!"", t!""],
    [t!"", t!""],
    [t!"%[1]d ಬೈಟ್‌ಗಳು", t!"%[1]d ಬೈಟ್‌ಗಳು"],
    [t!"", t!""],
    [t!"", t!""],
    [t!"", t!""],
    [t!"", t!""],
    [t!"", t!""],
    [t!"", t!""],
    [t!"", t!""],
    [t!"", t!""],
    [t!"", t!""],
    [t!"", t!""],
    [t!"", t!""]]
  singular := [
    none, none, some t!"%s KB", some t!"%s MB", some t!"%s GB", some t!"%s TB", some t!"%s PB", none, none, none, none, none, none, none, none, none, none, none]

/-- /repo/humanize/locale/ko/django.po. -/
def counts_ko : Counts where
  locale := loc_ko
  plural := [
    [t!"%[1]v년", t!""],
    [t!"%[1]v개월", t!""],
    [t!"%[1]v주", t!""],
    [t!"%[1]v일", t!""],
    [t!"%[1]v시간", t!""],
    [t!"%[1]v분", t!""],
    [t!"%[1]v년", t!""],
    [t!"%[1]v개월", t!""],
    [t!"%[1]v주", t!""],
    [t!"%[1]v일", t!""],
    [t!"%[1]v시간", t!""],
    [t!"%[1]v분", t!""],
    [t!"%[1]v년", t!""],
    [t!"%[1]v개월", t!""],
    [t!"%[1]v주", t!""],
    [t!"%[1]v일", t!""],
    [t!"%[1]v시간", t!""],
    [t!"%[1]v분", t!""],
    [t!"%[1]v 초 전", t!""],
    [t!"%[1]v 분 전", t!""],
    [t!"%[1]v 시간 전", t!""],
    [t!"지금부터 %[1]v 초", t!""],
    [t!"지금부터 %[1]v 분", t!""],
    [t!"지금부터 %[1]v 시간", t!""],
    [t!"%[1]d 바이트", t!""],
    [t!"%[1]s 백만", t!""],
    [t!"%[1]s 십억", t!""],
    [t!"%[1]s 조", t!""],
    [t!"%[1]s 천조", t!""],
    [t!"%[1]s 백경", t!""],
    [t!"%[1]s 섹틸리언-10의21제곱", t!""],
    [t!"%[1]s 셉틸리언-10의 24제곱", t!""],
    [t!"%[1]s 옥틸리언-10의 27제곱", t!""],
    [t!"%[1]s 노닐리언-10의30제곱", t!""],
    [t!"%[1]s 디실리언-10의 33제곱", t!""],
    [t!"%[1]s 구골-10의 100제곱", t!""]]
  singular := [
    some t!"%[1]v 전", some t!"지금부터 %[1]v", some t!"%s KB", some t!"%s MB", some t!"%s GB", some t!"%s TB", some t!"%s PB", some t!"%v번째", some t!"%v번째", some t!"%v번째", some t!"%v번째", some t!"%v번째", some t!"%v번째", some t!"%v번째", some t!"%v번째", some t!"%v번째", some t!"%v번째", some t!"%v번째"]

/-- /repo/humanize/locale/ky/django.po. -/
def counts_ky : Counts where
  locale := loc_ky
  plural := [
    [t!"%[1]v жыл", t!""],
    [t!"%[1]v ай", t!""],
    [t!"%[1]v апта", t!""],
    [t!"%[1]v күн", t!""],
    [t!"%[1]v саат", t!""],
    [t!"%[1]v мүнөт", t!""],
    [t!"%[1]v жыл", t!""],
    [t!"%[1]v ай", t!""],
    [t!"%[1]v апта", t!""],
    [t!"%[1]v күн", t!""],
    [t!"%[1]v саат", t!""],
    [t!"%[1]v мүнөт", t!""],
    [t!"%[1]v жыл", t!""],
    [t!"%[1]v ай", t!""],
    [t!"%[1]v апта", t!""],
    [t!"%[1]v күн", t!""],
    [t!"%[1]v саат", t!""],
    [t!"%[1]v мүнөт", t!""],
    [t!"%[1]vсекунд мурда", t!""],
    [t!"%[1]vмүнөт мурда", t!""],
    [t!"%[1]vсаат мурда", t!""],
    [t!"мындан%[1]vсекунд мурда", t!""],
    [t!"мындан%[1]vмүнөт мурда", t!""],
    [t!"мындан%[1]vсаат мурда", t!""],
    [t!"%[1]dбит", t!""],
    [t!"%[1]sмиллион", t!""],
    [t!"%[1]sмиллиард", t!""],
    [t!"%[1]sтриллион", t!""],
    [t!"%[1]sквадриллион", t!""],
    [t!"%[1]sквинтиллион", t!""],
    [t!"%[1]sсекстиллион", t!""],
    [t!"%[1]sсептиллион", t!""],
    [t!"%[1]sоктиллион", t!""],
    [t!"%[1]sнонтиллион", t!""],
    [t!"%[1]sдесилион", t!""],
    [t!"%[1]sгугл", t!""]]
  singular := [
    some t!"%[1]v мурда", some t!"мындан %[1]v мурда", some t!"%s КБ", some t!"%s мегабайт", some t!"%s гигабайт", some t!"%s терабайт", some t!"%s пикабайт", some t!"%vнчы", some t!"%vүнчү", some t!"%vинчи", some t!"%vинчи", some t!"%vүнчү", some t!"%vүнчү", some t!"%vинчи", some t!"%vнчы", some t!"%vинчи", some t!"%vинчи", some t!"%vунчу"]

/-- /repo/humanize/locale/lb/django.po. -/
def counts_lb : Counts where
  locale := loc_lb
  plural := [
    [],
    [],
    [],
    [],
    [],
    [],
    [],
    [],
    [],
    [],
    [],
    [],
    [],
    [],
    [],
    [],
    [],
    [],
    [t!"", t!""],
    [t!"", t!""],
    [t!"", t!""],
    [t!"", t!""],
    [t!"", t!""],
    [t!"", t!""],
    [t!"", t!""],
    [t!"", t!""],
    [t!"", t!""],
    [t!"", t!""],
    [t!"", t!""],
    [t!"", t!""],
    [t!"", t!""],
    [t!"", t!""],
    [t!"", t!""],
    [t!"", t!""],
    [t!"", t!""],
    [t!"", t!""]]
  singular := [
    none, none, some t!"%s KB", some t!"%s MB", some t!"%s GB", some t!"%s TB", some t!"%s PB", none, none, none, none, none, none, none, none, none, none, none]

/-- /repo/humanize/locale/lt/django.po. -/
def counts_lt : Counts where
  locale := loc_lt
  plural := [
    [t!"", t!"", t!"", t!""],
    [t!"", t!"", t!"", t!""],
    [t!"", t!"", t!"", t!""],
    [t!"", t!"", t!"", t!""],
    [t!"", t!"", t!"", t!""],
    [t!"", t!"", t!"", t!""],
    [],
    [],
    [],
    [],
    [],
    [],
    [],
    [],
    [],
    [],
    [],
    [],
    [t!"prieš %[1]v sekundę", t!"prieš %[1]v sekundes", t!"prieš %[1]v sekundžių", t!"prieš %[1]v sekundžių"],
    [t!"prieš %[1]v minutę", t!"prieš %[1]v minutes", t!"prieš %[1]v minučių", t!"prieš %[1]v minučių"],
    [t!"prieš %[1]v valandą", t!"prieš %[1]v valandas", t!"prieš %[1]v valandų", t!"prieš %[1]v valandų"],
    [t!"%[1]v sekundė nuo dabar", t!"%[1]v sekundes nuo dabar", t!"%[1]v skundžių nuo dabar", t!"%[1]v skundžių nuo dabar"],
    [t!"%[1]v minutė nuo dabar", t!"%[1]v minutės nuo dabar", t!"%[1]v minučių nuo dabar", t!"%[1]v minučių nuo dabar"],
    [t!"%[1]v valandą nuo dabar", t!"%[1]v valandos nuo dabar", t!"%[1]v valandų nuo dabar", t!"%[1]v valandų nuo dabar"],
    [t!"%[1]d baitas", t!"%[1]d baitai", t!"%[1]d baitai", t!"%[1]d baitai"],
    [t!"%[1]s milijonas", t!"%[1]s milijonai", t!"%[1]s milijonų", t!"%[1]s milijonų"],
    [t!"%[1]s milijardas", t!"%[1]s milijardai", t!"%[1]s milijardų", t!"%[1]s milijardų"],
    [t!"%[1]s trilijonas", t!"%[1]s trilijonai", t!"%[1]s trilijonų", t!"%[1]s trilijonų"],
    [t!"%[1]s kvadrilijonas", t!"%[1]s kvadrilijonai", t!"%[1]s kvadrilijonų", t!"%[1]s kvadrilijonų"],
    [t!"%[1]s kvintilijonas", t!"%[1]s kvintilijonai", t!"%[1]s kvintilijonų", t!"%[1]s kvintilijonų"],
    [t!"%[1]s sikstilijonas", t!"%[1]s sikstilijonai", t!"%[1]s sikstilijonų", t!"%[1]s sikstilijonų"],
    [t!"%[1]s septilijonas", t!"%[1]s septilijonai", t!"%[1]s septilijonų", t!"%[1]s septilijonų"],
    [t!"%[1]s oktilijonas", t!"%[1]s oktilijonai", t!"%[1]s oktilijonų", t!"%[1]s oktilijonų"],
    [t!"%[1]s naintilijonas", t!"%[1]s naintilijonai", t!"%[1]s naintilijonų", t!"%[1]s naintilijonų"],
    [t!"%[1]s decilijonas", t!"%[1]s decilijonai", t!"%[1]s decilijonų", t!"%[1]s decilijonų"],
    [t!"%[1]s gugolas", t!"%[1]s gugolai", t!"%[1]s gugolų", t!"%[1]s gugolų"]]
  singular := [
    some t!"prieš %[1]v", some t!"%[1]v nuo dabar", some t!"%s KB", some t!"%s MB", some t!"%s GB", some t!"%s TB", some t!"%s PB", some t!"%v-as", some t!"%v-as", some t!"%v-as", some t!"%v-as", some t!"%v-as", some t!"%v-as", some t!"%v-as", some t!"%v-as", some t!"%v-as", some t!"%v-as", some t!"%v-as"]

/-- /repo/humanize/locale/lv/django.po. -/
def counts_lv : Counts where
  locale := loc_lv
  plural := [
    [t!"%[1]v gadu", t!"%[1]v gads", t!"%[1]v gadi"],
    [t!"%[1]v mēnešu", t!"%[1]v mēnesis", t!"%[1]v mēneši"],
    [t!"%[1]v nedēļu", t!"%[1]v nedēļa", t!"%[1]v nedēļas"],
    [t!"%[1]v dienu", t!"%[1]v diena", t!"%[1]v dienas"],
    [t!"%[1]v stundu", t!"%[1]v stunda", t!"%[1]v stundas"],
    [t!"%[1]v minūšu", t!"%[1]v minūte", t!"%[1]v minūtes"],
    [t!"%[1]v gadu", t!"%[1]v gads", t!"%[1]v gadi"],
    [t!"%[1]v mēnešu", t!"%[1]v mēnesis", t!"%[1]v mēneši"],
    [t!"%[1]v nedēļu", t!"%[1]v nedēļa", t!"%[1]v nedēļas"],
    [t!"%[1]v dienu", t!"%[1]v diena", t!"%[1]v dienas"],
    [t!"%[1]v stundu", t!"%[1]v stunda", t!"%[1]v stundas"],
    [t!"%[1]v minūtes", t!"%[1]v minūte", t!"%[1]v minūtes"],
    [t!"%[1]v gadu", t!"%[1]v gads", t!"%[1]v gadi"],
    [t!"%[1]v mēnešu", t!"%[1]v mēnesis", t!"%[1]v mēneši"],
    [t!"%[1]v nedēļu", t!"%[1]v nedēļa", t!"%[1]v nedēļas"],
    [t!"%[1]v dienu", t!"%[1]v diena", t!"%[1]v dienas"],
    [t!"%[1]v stundas", t!"%[1]v stunda", t!"%[1]v stundas"],
    [t!"%[1]v minūšu", t!"%[1]v minūte", t!"%[1]v minūtes"],
    [t!"pirms %[1]v sekundes", t!"pirms %[1]v sekundēm", t!"pirms %[1]v sekundēm"],
    [t!"pirms %[1]v minūtes", t!"pirms %[1]v minūtēm", t!"pirms %[1]v minūtēm"],
    [t!"pirms %[1]v stundas", t!"pirms %[1]v stundām", t!"pirms %[1]v stundām"],
    [t!"pēc %[1]v sekundes", t!"pēc %[1]v sekundēm", t!"pēc %[1]v sekundēm"],
    [t!"pēc %[1]v minūtes", t!"pēc %[1]v minūtēm", t!"pēc %[1]v minūtēm"],
    [t!"pēc %[1]v stundas", t!"pēc %[1]v stundām", t!"pēc %[1]v stundām"],
    [t!"%[1]d baitu", t!"%[1]d baits", t!"%[1]d baiti"],
    [t!"%[1]s miljonu", t!"%[1]s miljons", t!"%[1]s miljoni"],
    [t!"%[1]s miljardu", t!"%[1]s miljards", t!"%[1]s miljardi"],
    [t!"%[1]s triljonu", t!"%[1]s triljons", t!"%[1]s triljoni"],
    [t!"%[1]s kvadriljonu", t!"%[1]s kvadriljons", t!"%[1]s kvadriljoni"],
    [t!"%[1]s kvintiljonu", t!"%[1]s kvintiljons", t!"%[1]s kvintiljoni"],
    [t!"%[1]s sekstiljonu", t!"%[1]s sekstiljons", t!"%[1]s sekstiljoni"],
    [t!"%[1]s septiljonu", t!"%[1]s septiljons", t!"%[1]s septiljoni"],
    [t!"%[1]s oktiljonu", t!"%[1]s oktiljons", t!"%[1]s oktiljoni"],
    [t!"%[1]s noniljonu", t!"%[1]s noniljons", t!"%[1]s noniljoni"],
    [t!"%[1]s dekaljonu", t!"%[1]s dekaljons", t!"%[1]s dekaljoni"],
    [t!"%[1]s gugolu", t!"%[1]s gugols", t!"%[1]s gugoli"]]
  singular := [
    some t!"pirms %[1]v", some t!"pēc %[1]v", some t!"%s KB", some t!"%s MB", some t!"%s GB", some t!"%s TB", some t!"%s PB", some t!"%v.", some t!"%v.", some t!"%v.", some t!"%v.", some t!"%v.", some t!"%v.", some t!"%v.", some t!"%v.", some t!"%v.", some t!"%v.", some t!"%v."]

/-- /repo/humanize/locale/mk/django.po. -/
def counts_mk : Counts where
  locale := loc_mk
  plural := [
    [],
    [],
    [],
    [],
    [],
    [],
    [],
    [],
    [],
    [],
    [],
    [],
    [],
    [],
    [],
    [],
    [],
    [],
    [t!"пред %[1]v секундa", t!"пред %[1]v секунди"],
    [t!"пред %[1]v минутa", t!"пред %[1]v минути"],
    [t!"пред %[1]v час", t!"пред %[1]v часа"],
    [t!"за %[1]v секундa од сега", t!"за %[1]v секунди од сега"],
    [t!"за %[1]v минута од сега", t!"за %[1]v минути од сега"],
    [t!"за %[1]v час од сега", t!"за %[1]v часа од сега"],
    [t!"%[1]d бајт", t!"%[1]d бајти"],
    [t!"%[1]s милион", t!"%[1]s милиони"],
    [t!"%[1]s милијарда", t!"%[1]s милијарди"],
    [t!"%[1]s трилион", t!"%[1]s трилиони"],
    [t!"%[1]s квадрилион", t!"%[1]s квадрилиони"],
    [t!"%[1]s квинтилион", t!"%[1]s квинтилиони"],
    [t!"%[1]s секстилион", t!"%[1]s секстилиони"],
    [t!"%[1]s септилион", t!"%[1]s септилиони"],
    [t!"%[1]s октилион", t!"%[1]s октилиони"],
    [t!"%[1]s нонилион", t!"%[1]s нонилиони"],
    [t!"%[1]s децилион", t!"%[1]s децилиони"],
    [t!"%[1]s гугол", t!"%[1]s гуголи"]]
  singular := [
    none, none, some t!"%s KB", some t!"%s MB", some t!"%s GB", some t!"%s TB", some t!"%s PB", none, none, none, none, none, none, none, none, none, none, none]

/-- /repo/humanize/locale/ml/django.po. -/
def counts_ml : Counts where
  locale := loc_ml
  plural := [
    [t!"", t!""],
    [t!"", t!""],
    [t!"", t!""],
    [t!"", t!""],
    [t!"", t!""],
    [t!"", t!""],
    [],
    [],
    [],
    [],
    [],
    [],
    [],
    [],
    [],
    [],
    [],
    [],
    [t!"", t!""],
    [t!"", t!""],
    [t!"", t!""],
    [t!"", t!""],
    [t!"", t!""],
    [t!"", t!""],
    [t!"%[1]d ബൈറ്റ്", t!"%[1]d ബൈറ്റുകള്‍"],
    [t!"%[1]s ദശലക്ഷം", t!"%[1]s ദശലക്ഷം"],
    [t!"%[1]s ശതകോടി", t!"%[1]s ശതകോടി"],
    [t!"%[1]s ലക്ഷം കോടി", t!"%[1]s ലക്ഷം കോടി"],
    [t!"%[1]s ക്വാഡ്രില്ല്യണ്‍", t!"%[1]s ക്വാഡ്രില്ല്യണ്‍"],
    [t!"%[1]s ക്വിന്റില്ല്യണ്‍", t!"%[1]s ക്വിന്റില്ല്യണ്‍"],
    [t!"%[1]s സെക്സ്റ്റില്ല്യണ്‍", t!"%[1]s സെക്സ്റ്റില്ല്യണ്‍"],
    [t!"%[1]s സെപ്റ്റില്ല്യണ്‍", t!"%[1]s സെപ്റ്റില്ല്യണ്‍"],
    [t!"%[1]s ഒക്റ്റില്ല്യണ്‍", t!"%[1]s ഒക്റ്റില്ല്യണ്‍"],
    [t!"%[1]s നോനില്ല്യണ്‍", t!"%[1]s നോനില്ല്യണ്‍"],
    [t!"%[1]s ഡെസില്ല്യണ്‍", t!"%[1]s ഡെസില്ല്യണ്‍"],
    [t!"%[1]s ഗൂഗോള്‍", t!"%[1]s ഗൂഗോള്‍"]]
  singular := [
    some t!"", some t!"", some t!"%s കെ.ബി", some t!"%s എം.ബി", some t!"%s ജി.ബി", some t!"%s ടി.ബി", some t!"%s പി.ബി", some t!"", some t!"", some t!"", some t!"", some t!"", some t!"", some t!"", some t!"", some t!"", some t!"", some t!""]

/-- /repo/humanize/locale/mn/django.po. -/
def counts_mn : Counts where
  locale := loc_mn
  plural := [
    [t!"%[1]v жил", t!"%[1]v жил"],
    [t!"%[1]v сар", t!"%[1]v сар"],
    [t!"%[1]v долоо хоног", t!"%[1]v долоо хоног"],
    [t!"%[1]v өдөр", t!"%[1]v өдөр"],
    [t!"%[1]v цаг", t!"%[1]v цаг"],
    [t!"%[1]v минут", t!"%[1]v минут"],
    [t!"%[1]v жил", t!"%[1]v жил"],
    [t!"%[1]v сар", t!"%[1]v сар"],
    [t!"%[1]v долоо хоног", t!"%[1]v долоо хоног"],
    [t!"%[1]v өдөр", t!"%[1]v өдөр"],
    [t!"%[1]v цаг", t!"%[1]v цаг"],
    [t!"%[1]v минут", t!"%[1]v минут"],
    [t!"%[1]v жил", t!"%[1]v жил"],
    [t!"%[1]v сар", t!"%[1]v сар"],
    [t!"%[1]v долоо хоног", t!"%[1]v долоо хоног"],
    [t!"%[1]v өдөр", t!"%[1]v өдөр"],
    [t!"%[1]v цаг", t!"%[1]v цаг"],
    [t!"%[1]v минут", t!"%[1]v минут"],
    [t!"1 секундын өмнө", t!"%[1]v секундын өмнө"],
    [t!"1 минутын өмнө", t!"%[1]v минутын өмнө"],
    [t!"1 цагийн өмнө", t!"%[1]v цагийн өмнө"],
    [t!"1 секундын дараа", t!"%[1]v секундын дараа"],
    [t!"1 минутын дараа", t!"%[1]v минутын дараа"],
    [t!"1 цагийн дараа", t!"%[1]v цагийн дараа"],
    [t!"%[1]d байт", t!"%[1]d байт"],
    [t!"%[1]s сая", t!"%[1]s сая"],
    [t!"%[1]s тэрбум", t!"%[1]s тэрбум"],
    [t!"%[1]s наяд", t!"%[1]s их наяд"],
    [t!"%[1]s тунамал", t!"%[1]s тунамал"],
    [t!"%[1]s их ингүүмэл ", t!"%[1]s их ингүүмэл "],
    [t!"%[1]s ялгаруулагч", t!"%[1]s ялгаруулагч"],
    [t!"%[1]s их өөр дээр ", t!"%[1]s их өөр дээр "],
    [t!"%[1]s өөр дээр ", t!"%[1]s өөр дээр "],
    [t!"%[1]s их шалтгааны үзэгдэл", t!"%[1]s их шалтгааны үзэгдэл"],
    [t!"%[1]s эрхэт", t!"%[1]s эрхэт"],
    [t!"%[1]s googol", t!"%[1]s googol"]]
  singular := [
    some t!"%[1]v ѳмнѳ", some t!"одооноос %[1]v ", some t!"%s KB", some t!"%s MB", some t!"%s GB", some t!"%s TB", some t!"%s PB", some t!"%v дэх", some t!"%v дэх", some t!"%v дэх", some t!"%v дахь", some t!"%v дахь", some t!"%v дэх", some t!"%v дахь", some t!"%v дахь", some t!"%v дахь", some t!"%v дахь", some t!"%v дэх"]

/-- /repo/humanize/locale/mr/django.po. -/
def counts_mr : Counts where
  locale := loc_mr
  plural := [
    [t!"", t!""],
    [t!"", t!""],
    [t!"", t!""],
    [t!"", t!""],
    [t!"", t!""],
    [t!"", t!""],
    [t!"", t!""],
    [t!"", t!""],
    [t!"", t!""],
    [t!"", t!""],
    [t!"", t!""],
    [t!"", t!""],
    [t!"", t!""],
    [t!"", t!""],
    [t!"", t!""],
    [t!"", t!""],
    [t!"", t!""],
    [t!"", t!""],
    [t!"", t!""],
    [t!"", t!""],
    [t!"", t!""],
    [t!"", t!""],
    [t!"", t!""],
    [t!"", t!""],
    [t!"", t!""],
    [t!"", t!""],
    [t!"", t!""],
    [t!"", t!""],
    [t!"", t!""],
    [t!"", t!""],
    [t!"", t!""],
    [t!"", t!""],
    [t!"", t!""],
    [t!"", t!""],
    [t!"", t!""],
    [t!"", t!""]]
  singular := [
    some t!"%[1]v पूर्वी", some t!"", some t!"%s केबी", some t!"%s एमबी", some t!"%s जीबी", some t!"%s टिबी", some t!"%s पीबी", some t!"%vवा", some t!"%vवा", some t!"%vवा", some t!"%vवा", some t!"%vवा", some t!"%vवा", some t!"%vवा", some t!"%vवा", some t!"%vवा", some t!"%vवा", some t!"{वा}"]

/-- /repo/humanize/locale/ms/django.po. -/
def counts_ms : Counts where
  locale := loc_ms
  plural := [
    [t!"%[1]v tahun", t!""],
    [t!"%[1]v bulan", t!""],
    [t!"%[1]v minggu ", t!""],
    [t!"%[1]v hari", t!""],
    [t!"%[1]v jam", t!""],
    [t!"%[1]v minit", t!""],
    [t!"%[1]v tahun", t!""],
    [t!"%[1]v bulan", t!""],
    [t!"%[1]v minggu", t!""],
    [t!"%[1]v hari", t!""],
    [t!"%[1]v jam", t!""],
    [t!"%[1]v minit", t!""],
    [t!"%[1]v tahun", t!""],
    [t!"%[1]v bulan", t!""],
    [t!"%[1]v minggu", t!""],
    [t!"%[1]v hari", t!""],
    [t!"%[1]v jam", t!""],
    [t!"%[1]v minit", t!""],
    [t!"%[1]v saat yang lalu", t!""],
    [t!"%[1]v minit yang lalu", t!""],
    [t!"%[1]v yang lalu", t!""],
    [t!"%[1]v saat dari sekarang", t!""],
    [t!"%[1]v minit dari sekarang", t!""],
    [t!"%[1]v jam dari sekarang", t!""],
    [t!"%[1]d bait", t!""],
    [t!"%[1]s juta", t!""],
    [t!"%[1]s bilion", t!""],
    [t!"%[1]s trilion", t!""],
    [t!"%[1]s kuadrilion", t!""],
    [t!"%[1]s kuintilion", t!""],
    [t!"%[1]ssextilion", t!""],
    [t!"%[1]s septilion", t!""],
    [t!"%[1]s oktilion", t!""],
    [t!"%[1]s nontilion", t!""],
    [t!"%[1]sdesilion", t!""],
    [t!"%[1]s googol", t!""]]
  singular := [
    some t!"%[1]v yang lalu", some t!"%[1]v dari sekarang", some t!"%s KB", some t!"%s MB", some t!"%s GB", some t!"%s TB", some t!"%s PB", some t!"ke%v", some t!"ke%v", some t!"ke%v", some t!"ke%v", some t!"ke%v", some t!"ke%v", some t!"ke%v", some t!"ke%v", some t!"ke%v", some t!"ke%v", some t!"ke%v"]

/-- /repo/humanize/locale/my/django.po. -/
def counts_my : Counts where
  locale := loc_my
  plural := [
    [],
    [],
    [],
    [],
    [],
    [],
    [],
    [],
    [],
    [],
    [],
    [],
    [],
    [],
    [],
    [],
    [],
    [],
    [t!"", t!""],
    [t!"", t!""],
    [t!"", t!""],
    [t!"", t!""],
    [t!"", t!""],
    [t!"", t!""],
    [t!"%[1]d ဘိုက်များ", t!""],
    [t!"%[1]s မီလီယံ", t!""],
    [t!"%[1]s ဘီလီယံ", t!""],
    [t!"%[1]s တရီလျံ", t!""],
    [t!"%[1]s ကွပ်ဒရီလျံ", t!""],
    [t!"%[1]s ကွင့်တီလျံ", t!""],
    [t!"%[1]s ဆက်တီလျံ", t!""],
    [t!"%[1]s ဆပ်တီလျံ", t!""],
    [t!"%[1]s အော့တီလျံ", t!""],
    [t!"%[1]s နိုနီလျံ", t!""],
    [t!"%[1]s ဒက်စီလျံ", t!""],
    [t!"%[1]s ဂူးဂေါ်", t!""]]
  singular := [
    none, none, some t!"%s ကီလိုဘိုက်", some t!"%s မက်ဂါဘိုက်", some t!"%s ဂစ်ဂါဘိုက်", some t!"%s တီရာဘိုက်", some t!"%s ပီတာဘိုက်", none, none, none, none, none, none, none, none, none, none, none]

/-- /repo/humanize/locale/nb/django.po. -/
def counts_nb : Counts where
  locale := loc_nb
  plural := [
    [t!"%[1]v år", t!"%[1]v år"],
    [t!"%[1]v måned", t!"%[1]v måneder"],
    [t!"%[1]v uke", t!"%[1]v uker"],
    [t!"%[1]v dag", t!"%[1]v dager"],
    [t!"%[1]v time", t!"%[1]v timer"],
    [t!"%[1]v minutt", t!"%[1]v minutter"],
    [t!"%[1]v år", t!"%[1]v år"],
    [t!"%[1]v måned", t!"%[1]v måneder"],
    [t!"%[1]v uke", t!"%[1]v uker"],
    [t!"%[1]v dag", t!"%[1]v dager"],
    [t!"%[1]v time", t!"%[1]v timer"],
    [t!"%[1]v minutt", t!"%[1]v minutter"],
    [t!"%[1]v år", t!"%[1]v år"],
    [t!"%[1]v måned", t!"%[1]v måneder"],
    [t!"%[1]v uke", t!"%[1]v uker"],
    [t!"%[1]v dag", t!"%[1]v dager"],
    [t!"%[1]v time", t!"%[1]v timer"],
    [t!"%[1]v minutt", t!"%[1]v minutter"],
    [t!"et sekund siden", t!"%[1]v sekunder siden"],
    [t!"et minutt siden", t!"%[1]v minutter siden"],
    [t!"en time siden", t!"%[1]v timer siden"],
    [t!"et sekund fra nå", t!"%[1]v sekunder fra nå"],
    [t!"et minutt fra nå", t!"%[1]v minutter fra nå"],
    [t!"en time fra nå", t!"%[1]v timer fra nå"],
    [t!"%[1]d byte", t!"%[1]d byte"],
    [t!"%[1]s million", t!"%[1]s millioner"],
    [t!"%[1]s milliard", t!"%[1]s milliarder"],
    [t!"%[1]s billion", t!"%[1]s billioner"],
    [t!"%[1]s kvadrillion", t!"%[1]s kvadrillioner"],
    [t!"%[1]s kvintillion", t!"%[1]s kvintillioner"],
    [t!"%[1]s sekstillion", t!"%[1]s sekstillioner"],
    [t!"%[1]s septillion", t!"%[1]s septillioner"],
    [t!"%[1]s oktillion", t!"%[1]s oktillioner"],
    [t!"%[1]s nonillion", t!"%[1]s nonillioner"],
    [t!"%[1]s desillion", t!"%[1]s desillioner"],
    [t!"%[1]s googol", t!"%[1]s googoler"]]
  singular := [
    some t!"%[1]v siden", some t!"%[1]v fra nå", some t!"%s KB", some t!"%s MB", some t!"%s GB", some t!"%s TB", some t!"%s PB", some t!"%v.", some t!"%v.", some t!"%v.", some t!"%v.", some t!"%v.", some t!"%v.", some t!"%v.", some t!"%v.", some t!"%v.", some t!"%v.", some t!"%v."]

/-- /repo/humanize/locale/ne/django.po. -/
def counts_ne : Counts where
  locale := loc_ne
  plural := [
    [],
    [],
    [],
    [],
    [],
    [],
    [],
    [],
    [],
    [],
    [],
    [],
    [],
    [],
    [],
    [],
    [],
    [],
    [t!"एक सेकेन्ड अघि", t!"%[1]v सेकेन्ड अघि"],
    [t!"एक मिनेट अघि", t!"%[1]v मिनेट अघि"],
    [t!"एक घण्टा अघि", t!"%[1]v घण्टा अघि"],
    [t!"एक सेकेन्ड पछि", t!"%[1]v सेकेन्ड पछि"],
    [t!"एक मिनेट पछि", t!"%[1]v मिनेट पछि"],
    [t!"एक घण्टा पछि", t!"%[1]v घण्टा पछि"],
    [t!"%[1]d बाइट", t!"%[1]d बाइटहरु"],
    [t!"%[1]s मिलियन", t!"%[1]s मिलियन"],
    [t!"%[1]s अरब", t!"%[1]s अरब"],
    [t!"%[1]s खरब", t!"%[1]s खरब"],
    [t!"%[1]s करोड़ शंख", t!"%[1]s करोड़ शंख"],
    [t!"", t!""],
    [t!"", t!""],
    [t!"", t!""],
    [t!"", t!""],
    [t!"", t!""],
    [t!"", t!""],
    [t!"", t!""]]
  singular := [
    some t!"%[1]vपहिले", some t!"%[1]v अबदेखि", some t!"%s किलोबाइट", some t!"%s मेगाबाइट", some t!"%s गिगाबाइट", some t!"%s टेराबाइट", some t!"%s पिटाबाइट", some t!"", some t!"", some t!"", some t!"", some t!"", some t!"", some t!"", some t!"", some t!"", some t!"", some t!""]

/-- /repo/humanize/locale/nl/django.po. -/
def counts_nl : Counts where
  locale := loc_nl
  plural := [
    [t!"%[1]v jaar", t!"%[1]v jaar"],
    [t!"%[1]v maand", t!"%[1]v maanden"],
    [t!"%[1]v week", t!"%[1]v weken"],
    [t!"%[1]v dag", t!"%[1]v dagen"],
    [t!"%[1]v uur", t!"%[1]v uur"],
    [t!"%[1]v minuut", t!"%[1]v minuten"],
    [t!"%[1]v jaar", t!"%[1]v jaar"],
    [t!"%[1]v maand", t!"%[1]v maanden"],
    [t!"%[1]v week", t!"%[1]v weken"],
    [t!"%[1]v dag", t!"%[1]v dagen"],
    [t!"%[1]v uur", t!"%[1]v uur"],
    [t!"%[1]v minuut", t!"%[1]v minuten"],
    [t!"%[1]v jaar", t!"%[1]v jaar"],
    [t!"%[1]v maand", t!"%[1]v maanden"],
    [t!"%[1]v week", t!"%[1]v weken"],
    [t!"%[1]v dag", t!"%[1]v dagen"],
    [t!"%[1]v uur", t!"%[1]v uur"],
    [t!"%[1]v minuut", t!"%[1]v minuten"],
    [t!"een seconde geleden", t!"%[1]v seconden geleden"],
    [t!"een minuut geleden", t!"%[1]v minuten geleden"],
    [t!"een uur geleden", t!"%[1]v uur geleden"],
    [t!"over een seconde", t!"over %[1]v seconden"],
    [t!"over een minuut", t!"over %[1]v minuten"],
    [t!"over een uur", t!"over %[1]v uur"],
    [t!"%[1]d byte", t!"%[1]d bytes"],
    [t!"%[1]s miljoen", t!"%[1]s miljoen"],
    [t!"%[1]s miljard", t!"%[1]s miljard"],
    [t!"%[1]s biljoen", t!"%[1]s biljoen"],
    [t!"%[1]s biljard", t!"%[1]s biljard"],
    [t!"%[1]s triljoen", t!"%[1]s triljoen"],
    [t!"%[1]s triljard", t!"%[1]s triljard"],
    [t!"%[1]s quadriljoen", t!"%[1]s quadriljoen"],
    [t!"%[1]s quadriljard", t!"%[1]s quadriljard"],
    [t!"%[1]s quintiljoen", t!"%[1]s quintiljoen"],
    [t!"%[1]s quintiljard", t!"%[1]s quintiljard"],
    [t!"%[1]s googol", t!"%[1]s googol"]]
  singular := [
    some t!"%[1]v geleden", some t!"over %[1]v", some t!"%s KB", some t!"%s MB", some t!"%s GB", some t!"%s TB", some t!"%s PB", some t!"%ve", some t!"%ve", some t!"%ve", some t!"%ve", some t!"%ve", some t!"%ve", some t!"%ve", some t!"%ve", some t!"%ve", some t!"%ve", some t!"%ve"]

/-- /repo/humanize/locale/nn/django.po. -/
def counts_nn : Counts where
  locale := loc_nn
  plural := [
    [t!"%[1]v år", t!"%[1]v år"],
    [t!"%[1]v månad", t!"%[1]v månader"],
    [t!"%[1]v veke", t!"%[1]v veker"],
    [t!"%[1]v dag", t!"%[1]v dagar"],
    [t!"%[1]v time", t!"%[1]v timar"],
    [t!"%[1]v minutt", t!"%[1]v minutt"],
    [t!"%[1]v år", t!"%[1]v år"],
    [t!"%[1]v månad", t!"%[1]v månader"],
    [t!"%[1]v veke", t!"%[1]v veker"],
    [t!"%[1]v dag", t!"%[1]v dagar"],
    [t!"%[1]v time", t!"%[1]v timar"],
    [t!"%[1]v minutt", t!"%[1]v minutt"],
    [t!"%[1]v år", t!"%[1]v år"],
    [t!"%[1]v månad", t!"%[1]v månader"],
    [t!"%[1]v veke", t!"%[1]v veker"],
    [t!"%[1]v dag", t!"%[1]v dagar"],
    [t!"%[1]v time", t!"%[1]v timar"],
    [t!"%[1]v minutt", t!"%[1]v minutt"],
    [t!"eitt sekund sidan", t!"%[1]v sekund sidan"],
    [t!"eitt minutt sidan", t!"%[1]v minutt sidan"],
    [t!"ein time sidan", t!"%[1]v timar sidan"],
    [t!"eitt sekund frå no", t!"%[1]v sekund frå no"],
    [t!"eitt minutt frå no", t!"%[1]v minutt frå no"],
    [t!"ein time frå no", t!"%[1]v timar frå no"],
    [t!"%[1]d byte", t!"%[1]d bytes"],
    [t!"%[1]s million", t!"%[1]s millionar"],
    [t!"%[1]s milliard", t!"%[1]s milliardar"],
    [t!"%[1]s billion", t!"%[1]s billionar"],
    [t!"%[1]s kvadrillion", t!"%[1]s kvadrillionar"],
    [t!"%[1]s kvintillion", t!"%[1]s kvintillionar"],
    [t!"%[1]s sekstillion", t!"%[1]s sekstillionar"],
    [t!"%[1]s septillion", t!"%[1]s septillionar"],
    [t!"%[1]s oktillion", t!"%[1]s oktillionar"],
    [t!"%[1]s nonillion", t!"%[1]s nonillionar"],
    [t!"%[1]s desillion", t!"%[1]s desillionar"],
    [t!"%[1]s googol", t!"%[1]s googolar"]]
  singular := [
    some t!"%[1]v sidan", some t!"%[1]v frå no", some t!"%s KB", some t!"%s MB", some t!"%s GB", some t!"%s TB", some t!"%s PB", some t!"%v.", some t!"%v.", some t!"%v.", some t!"%v.", some t!"%v.", some t!"%v.", some t!"%v.", some t!"%v.", some t!"%v.", some t!"%v.", some t!"%v."]

/-- /repo/humanize/locale/os/django.po. -/
def counts_os : Counts where
  locale := loc_os
  plural := [
    [],
    [],
    [],
    [],
    [],
    [],
    [],
    [],
    [],
    [],
    [],
    [],
    [],
    [],
    [],
    [],
    [],
    [],
    [t!"", t!""],
    [t!"", t!""],
    [t!"", t!""],
    [t!"", t!""],
    [t!"", t!""],
    [t!"", t!""],
    [t!"%[1]d байт", t!"%[1]d байты"],
    [t!"%[1]s милуан", t!"%[1]s милуан"],
    [t!"%[1]s биллион", t!"%[1]s биллион"],
    [t!"%[1]s триллион", t!"%[1]s триллион"],
    [t!"%[1]s къуадриллион", t!"%[1]s къуадриллион"],
    [t!"%[1]s къуинтиллион", t!"%[1]s къуинтиллион"],
    [t!"%[1]s секстиллион", t!"%[1]s секстиллион"],
    [t!"%[1]s септиллион", t!"%[1]s септиллион"],
    [t!"%[1]s октиллион", t!"%[1]s октиллион"],
    [t!"%[1]s нониллион", t!"%[1]s нониллион"],
    [t!"%[1]s дециллион", t!"%[1]s дециллион"],
    [t!"%[1]s гугол", t!"%[1]s гугол"]]
  singular := [
    none, none, some t!"%s КБ", some t!"%s МБ", some t!"%s ГБ", some t!"%s ТБ", some t!"%s ПБ", none, none, none, none, none, none, none, none, none, none, none]

/-- /repo/humanize/locale/pa/django.po. -/
def counts_pa : Counts where
  locale := loc_pa
  plural := [
    [],
    [],
    [],
    [],
    [],
    [],
    [],
    [],
    [],
    [],
    [],
    [],
    [],
    [],
    [],
    [],
    [],
    [],
    [t!"", t!""],
    [t!"", t!""],
    [t!"", t!""],
    [t!"", t!""],
    [t!"", t!""],
    [t!"", t!""],
    [t!"%[1]d ਬਾਈਟ", t!"%[1]d ਬਾਈਟ"],
    [t!"%[1]s ਮਿਲੀਅਨ", t!"%[1]s ਮਿਲੀਅਨ"],
    [t!"", t!""],
    [t!"", t!""],
    [t!"", t!""],
    [t!"", t!""],
    [t!"", t!""],
    [t!"", t!""],
    [t!"", t!""],
    [t!"", t!""],
    [t!"", t!""],
    [t!"", t!""]]
  singular := [
    none, none, some t!"%s KB", some t!"%s MB", some t!"%s GB", some t!"%s TB", some t!"%s PB", none, none, none, none, none, none, none, none, none, none, none]

/-- /repo/humanize/locale/pl/django.po. -/
def counts_pl : Counts where
  locale := loc_pl
  plural := [
    [t!"%[1]v rok", t!"%[1]v lata", t!"%[1]v lat", t!"%[1]v roku"],
    [t!"%[1]v miesiąc", t!"%[1]v miesiące", t!"%[1]v miesięcy", t!"%[1]v miesiąca"],
    [t!"%[1]v tydzień", t!"%[1]v tygodnie", t!"%[1]v tygodni", t!"%[1]v tygodnia"],
    [t!"%[1]v dzień", t!"%[1]v dni", t!"%[1]v dni", t!"%[1]v dnia"],
    [t!"%[1]v godzina", t!"%[1]v godziny", t!"%[1]v godzin", t!"%[1]v godziny"],
    [t!"%[1]v minuta", t!"%[1]v minuty", t!"%[1]v minut", t!"%[1]v minut"],
    [t!"%[1]v rok", t!"%[1]v lata", t!"%[1]v lat", t!"%[1]v roku"],
    [t!"%[1]v miesiąc", t!"%[1]v miesiące", t!"%[1]v miesięcy", t!"%[1]v miesiąca"],
    [t!"%[1]v tydzień", t!"%[1]v tygodnie", t!"%[1]v tygodni", t!"%[1]v tygodnia"],
    [t!"%[1]v dzień", t!"%[1]v dni", t!"%[1]v dni", t!"%[1]v dnia"],
    [t!"%[1]v godzinę", t!"%[1]v godziny", t!"%[1]v godzin", t!"%[1]v godziny"],
    [t!"%[1]v minutę", t!"%[1]v minuty", t!"%[1]v minut", t!"%[1]v minuty"],
    [t!"%[1]v rok", t!"%[1]v lata", t!"%[1]v lat", t!"%[1]v roku"],
    [t!"%[1]v miesiąc", t!"%[1]v miesiące", t!"%[1]v miesięcy", t!"%[1]vmiesiąca"],
    [t!"%[1]v tydzień", t!"%[1]v tygodnie", t!"%[1]v tygodni", t!"%[1]v tygodnia"],
    [t!"%[1]v dzień", t!"%[1]v dni", t!"%[1]v dni", t!"%[1]v dnia"],
    [t!"%[1]v godzinę", t!"%[1]v godziny", t!"%[1]v godzin", t!"%[1]v godziny"],
    [t!"%[1]v minutę", t!"%[1]v minuty", t!"%[1]v minut", t!"%[1]v minuty"],
    [t!"sekundę temu", t!"%[1]v sekundy temu", t!"%[1]v sekund temu", t!"%[1]v sekund temu"],
    [t!"minutę temu", t!"%[1]v minuty temu", t!"%[1]v minut temu", t!"%[1]v minut temu"],
    [t!"godzinę temu", t!"%[1]v godziny temu", t!"%[1]v godzin temu", t!"%[1]v godzin temu"],
    [t!"za sekundę", t!"za %[1]v sekundy", t!"za %[1]v sekund", t!"za %[1]v sekund"],
    [t!"za minutę", t!"za %[1]v minuty", t!"za %[1]v minut", t!"za %[1]v minut"],
    [t!"za godzinę", t!"za %[1]v godziny", t!"za %[1]v godzin", t!"za %[1]v godzin"],
    [t!"%[1]d bajt", t!"%[1]d bajty", t!"%[1]d bajtów", t!"%[1]d bajtów"],
    [t!"%[1]s milion", t!"%[1]s miliony", t!"%[1]s milionów", t!"%[1]s milionów"],
    [t!"%[1]s miliard", t!"%[1]s miliardy", t!"%[1]s miliardów", t!"%[1]s miliardów"],
    [t!"%[1]s kwintylion", t!"%[1]s biliony", t!"%[1]s kwintylionów", t!"%[1]s kwintylionów"],
    [t!"%[1]s kwadrylion", t!"%[1]s biliardy", t!"%[1]s kwadrylionów", t!"%[1]s kwadrylionów"],
    [t!"%[1]s trylion", t!"%[1]s tryliony", t!"%[1]s trylionyów", t!"%[1]s trylionyów"],
    [t!" %[1]s tryliard", t!"%[1]s tryliardy", t!"%[1]s tryliardów", t!"%[1]s tryliardów"],
    [t!"%[1]s septylion", t!"%[1]s septyliony", t!"%[1]s septylionów", t!"%[1]s septylionów"],
    [t!"%[1]s kwadryliard", t!"%[1]s kwardyliardy", t!"%[1]s kwadryliardów", t!"%[1]s kwadryliardów"],
    [t!"%[1]s kwintylion", t!"%[1]s kwintyliony", t!"%[1]s kwintylionów", t!"%[1]s kwintylionów"],
    [t!"%[1]s kwintyliard", t!"%[1]s kwintyliardy", t!"%[1]s kwintyliardów", t!"%[1]s kwintyliardów"],
    [t!"%[1]s googol", t!"%[1]s googole", t!"%[1]s googolów", t!"%[1]s googolów"]]
  singular := [
    some t!"%[1]v temu", some t!"za %[1]v", some t!"%s KB", some t!"%s MB", some t!"%s GB", some t!"%s TB", some t!"%s PB", some t!"%v.", some t!"%v.", some t!"%v.", some t!"%v.", some t!"%v.", some t!"%v.", some t!"%v.", some t!"%v.", some t!"%v.", some t!"%v.", some t!"%v."]

/-- /repo/humanize/locale/pt/django.po. -/
def counts_pt : Counts where
  locale := loc_pt
  plural := [
    [t!"%[1]v ano", t!"%[1]v anos", t!"%[1]v anos"],
    [t!"%[1]v mês", t!"%[1]v meses", t!"%[1]v meses"],
    [t!"%[1]v semana", t!"%[1]v semanas", t!"%[1]v semanas"],
    [t!"%[1]v dia", t!"%[1]v dias", t!"%[1]v dias"],
    [t!"%[1]v hora", t!"%[1]v horas", t!"%[1]v horas"],
    [t!"%[1]v minuto", t!"%[1]v minutos", t!"%[1]v minutos"],
    [t!"%[1]v ano", t!"%[1]v anos", t!"%[1]v anos"],
    [t!"%[1]v mês", t!"%[1]v meses", t!"%[1]v meses"],
    [t!"%[1]v semana", t!"%[1]v semanas", t!"%[1]v semanas"],
    [t!"%[1]v dia", t!"%[1]v dias", t!"%[1]v dias"],
    [t!"%[1]v hora", t!"%[1]v horas", t!"%[1]v horas"],
    [t!"%[1]v minuto", t!"%[1]v minutos", t!"%[1]v minutos"],
    [t!"%[1]v ano", t!"%[1]v anos", t!"%[1]v anos"],
    [t!"%[1]v mês", t!"%[1]v meses", t!"%[1]v meses"],
    [t!"%[1]v semana", t!"%[1]v semanas", t!"%[1]v semanas"],
    [t!"%[1]v dia", t!"%[1]v dias", t!"%[1]v dias"],
    [t!"%[1]v hora", t!"%[1]v horas", t!"%[1]v horas"],
    [t!"%[1]v minuto", t!"%[1]v minutos", t!"%[1]v minutos"],
    [t!"há um segundo atrás", t!"há %[1]v segundos atrás", t!"há %[1]v segundos atrás"],
    [t!"há um minuto atrás", t!"há %[1]v minutos atrás", t!"há %[1]v minutos atrás"],
    [t!"há uma hora atrás", t!"há %[1]v horas atrás", t!"há %[1]v horas atrás"],
    [t!"daqui a um segundo", t!"daqui a %[1]v segundos", t!"daqui a %[1]v segundos"],
    [t!"daqui a um minuto", t!"daqui a %[1]v minutos", t!"daqui a %[1]v minutos"],
    [t!"daqui a uma hora", t!"daqui a %[1]v horas", t!"daqui a %[1]v horas"],
    [t!"%[1]d byte", t!"%[1]d bytes", t!"%[1]d bytes"],
    [t!"%[1]s milhão", t!"%[1]s milhões", t!"%[1]s milhões"],
    [t!"%[1]s bilião", t!"%[1]s biliões", t!"%[1]s biliões"],
    [t!"%[1]s trilião", t!"%[1]s triliões", t!"%[1]s triliões"],
    [t!"%[1]s quadrilião", t!"%[1]s quatriliões", t!"%[1]s quatriliões"],
    [t!"%[1]s quintilião", t!"%[1]s quintiliões", t!"%[1]s quintiliões"],
    [t!"%[1]s sextilião", t!"%[1]s sextiliões", t!"%[1]s sextiliões"],
    [t!"%[1]s septilião", t!"%[1]s septiliões", t!"%[1]s septiliões"],
    [t!"%[1]s octilião", t!"%[1]s octiliões", t!"%[1]s octiliões"],
    [t!"%[1]s nonilião", t!"%[1]s noniliões", t!"%[1]s noniliões"],
    [t!"%[1]s decilião", t!"%[1]s deciliões", t!"%[1]s deciliões"],
    [t!"%[1]s googol", t!"%[1]s googol", t!"%[1]s googol"]]
  singular := [
    some t!"%[1]v atrás", some t!"%[1]v a partir de agora", some t!"%s KB", some t!"%s MB", some t!"%s GB", some t!"%s TB", some t!"%s PB", some t!"%v.º", some t!"%v.º", some t!"%v.º", some t!"%v.º", some t!"%v.º", some t!"%v.º", some t!"%v.º", some t!"%v.º", some t!"%v.º", some t!"%v.º", some t!"%v.º"]

/-- /repo/humanize/locale/ptBR/django.po. -/
def counts_ptBR : Counts where
  locale := loc_ptBR
  plural := [
    [t!"%[1]v ano", t!"%[1]v anos", t!"%[1]v anos"],
    [t!"%[1]v mês", t!"%[1]v meses", t!"%[1]v meses"],
    [t!"%[1]v semana", t!"%[1]v semanas", t!"%[1]v semanas"],
    [t!"%[1]v dia", t!"%[1]v dias", t!"%[1]v dias"],
    [t!"%[1]v hora", t!"%[1]v horas", t!"%[1]v horas"],
    [t!"%[1]v minuto", t!"%[1]v minutos", t!"%[1]v minutos"],
    [t!"%[1]v ano", t!"%[1]v anos", t!"%[1]v anos"],
    [t!"%[1]v mês", t!"%[1]v meses", t!"%[1]v meses"],
    [t!"%[1]v semana", t!"%[1]v semanas", t!"%[1]v semanas"],
    [t!"%[1]v dia", t!"%[1]v dias", t!"%[1]v dias"],
    [t!"%[1]v hora", t!"%[1]v horas", t!"%[1]v horas"],
    [t!"%[1]v minuto", t!"%[1]v minutos", t!"%[1]v minutos"],
    [t!"%[1]v ano", t!"%[1]v anos", t!"%[1]v anos"],
    [t!"%[1]v mês", t!"%[1]v meses", t!"%[1]v meses"],
    [t!"%[1]v semana", t!"%[1]v semanas", t!"%[1]v semanas"],
    [t!"%[1]v dia", t!"%[1]v dias", t!"%[1]v dias"],
    [t!"%[1]v hora", t!"%[1]v horas", t!"%[1]v horas"],
    [t!"%[1]v minuto", t!"%[1]v minutos", t!"%[1]v minutos"],
    [t!"um segundo atrás", t!"%[1]v segundos atrás", t!"%[1]v segundos atrás"],
    [t!"um minuto atrás", t!"%[1]v minutos atrás", t!"%[1]v minutos atrás"],
    [t!"uma hora atrás", t!"%[1]v horas atrás", t!"%[1]v horas atrás"],
    [t!"um segundo a partir de agora", t!"%[1]v segundos a partir de agora", t!"%[1]v segundos a partir de agora"],
    [t!"um minuto a partir de agora", t!"%[1]v minutos a partir de agora", t!"%[1]v minutos a partir de agora"],
    [t!"uma hora a partir de agora", t!"%[1]v horas a partir de agora", t!"%[1]v horas a partir de agora"],
    [t!"%[1]d byte", t!"%[1]d bytes", t!"%[1]d bytes"],
    [t!"%[1]s milhão", t!"%[1]s milhões", t!"%[1]s milhões"],
    [t!"%[1]s bilhão", t!"%[1]s bilhões", t!"%[1]s bilhões"],
    [t!"%[1]s trilhão", t!"%[1]s trilhões", t!"%[1]s trilhões"],
    [t!"%[1]s quadrilhão", t!"%[1]s quadrilhões", t!"%[1]s quadrilhões"],
    [t!"%[1]s quintilhão", t!"%[1]s quintilhões", t!"%[1]s quintilhões"],
    [t!"%[1]s sextilhão", t!"%[1]s sextilhões", t!"%[1]s sextilhões"],
    [t!"%[1]s septilhão", t!"%[1]s septilhões", t!"%[1]s septilhões"],
    [t!"%[1]s octilhão", t!"%[1]s octilhões", t!"%[1]s octilhões"],
    [t!"%[1]s nonilhão", t!"%[1]s nonilhões", t!"%[1]s nonilhões"],
    [t!"%[1]s decilhão", t!"%[1]s decilhões", t!"%[1]s decilhões"],
    [t!"%[1]s googol", t!"%[1]s googol", t!"%[1]s googol"]]
  singular := [
    some t!"%[1]v atrás", some t!"%[1]v a partir de agora", some t!"%s KB", some t!"%s MB", some t!"%s GB", some t!"%s TB", some t!"%s PB", some t!"%vº", some t!"%vº", some t!"%vº", some t!"%vº", some t!"%vº", some t!"%vº", some t!"%vº", some t!"%vº", some t!"%vº", some t!"%vº", some t!"%vº"]

/-- /repo/humanize/locale/ro/django.po. -/
def counts_ro : Counts where
  locale := loc_ro
  plural := [
    [t!"%[1]v an", t!"%[1]v ani", t!"%[1]v de ani"],
    [t!"%[1]v lună", t!"%[1]v luni", t!"%[1]v de luni"],
    [t!"%[1]v săptămână", t!"%[1]v săptămâni", t!"%[1]v de săptămâni"],
    [t!"%[1]v zi", t!"%[1]v zile", t!"%[1]v de zile"],
    [t!"%[1]v oră", t!"%[1]v ore", t!"%[1]v de ore"],
    [t!"%[1]v minut", t!"%[1]v minute", t!"%[1]v de minute"],
    [],
    [],
    [],
    [],
    [],
    [],
    [],
    [],
    [],
    [],
    [],
    [],
    [t!"Acum o secundă", t!"Acum %[1]v secunde", t!"Acum %[1]v de secunde"],
    [t!"Acum un minut", t!"Acum %[1]v minute", t!"Acum %[1]v de minute"],
    [t!"Acum o oră", t!"Acum %[1]v ore", t!"Acum %[1]v de ore"],
    [t!"Într-o secundă", t!"În %[1]v secunde", t!"În %[1]v de secunde"],
    [t!"Într-un minut", t!"În %[1]v minute", t!"În %[1]v de minute"],
    [t!"Într-o oră", t!"În %[1]v ore", t!"În %[1]v de ore"],
    [t!"%[1]d octet", t!"%[1]d octeţi", t!"%[1]d de octeţi"],
    [t!"%[1]s milion", t!"%[1]s milioane", t!"%[1]s de milioane"],
    [t!"%[1]s miliard", t!"%[1]s miliarde", t!"%[1]s de miliarde"],
    [t!"%[1]s trilion", t!"%[1]s trilioane", t!"%[1]s de trilioane"],
    [t!"%[1]s cuadrilion", t!"%[1]s cuadrilioane", t!"%[1]s de cuadrilioane"],
    [t!"%[1]s cuntilion", t!"%[1]s cuntilioane", t!"%[1]s de cuntilioane"],
    [t!"%[1]s sextilion", t!"%[1]s sextilioane", t!"%[1]s de sextilioane"],
    [t!"%[1]s septilion", t!"%[1]s septilioane", t!"%[1]s de septilioane"],
    [t!"%[1]s octilion", t!"%[1]s octilioane", t!"%[1]s de octilioane"],
    [t!"%[1]s nonilion", t!"%[1]s nonilioane", t!"%[1]s de nonilioane"],
    [t!"%[1]s decilion", t!"%[1]s decilioane", t!"%[1]s de decilioane"],
    [t!"%[1]s googol", t!"%[1]s googol", t!"%[1]s de googol"]]
  singular := [
    some t!"Acum %[1]v", some t!"În %[1]v", some t!"%s KO", some t!"%s MO", some t!"%s GO", some t!"%s TO", some t!"%s PO", some t!"al %v-lea", some t!"al %v-lea", some t!"%v", some t!"al %v-lea", some t!"al %v-lea", some t!"al %v-lea", some t!"al %v-lea", some t!"al %v-lea", some t!"al %v-lea", some t!"al %v-lea", some t!"al %v-lea"]

/-- /repo/humanize/locale/ru/django.po. -/
def counts_ru : Counts where
  locale := loc_ru
  plural := [
    [t!"%[1]v год", t!"%[1]v года", t!"%[1]v лет", t!"%[1]v лет"],
    [t!"%[1]v месяц", t!"%[1]v месяца", t!"%[1]v месяцев", t!"%[1]v месяцев"],
    [t!"%[1]v неделя", t!"%[1]v недели", t!"%[1]v недель", t!"%[1]v недель"],
    [t!"%[1]v день", t!"%[1]v дня", t!"%[1]v дней", t!"%[1]v дней"],
    [t!"%[1]v час", t!"%[1]v часа", t!"%[1]v часов", t!"%[1]v часов"],
    [t!"%[1]v минута", t!"%[1]v минуты", t!"%[1]v минут", t!"%[1]v минут"],
    [t!"%[1]v год", t!"%[1]v года", t!"%[1]v лет", t!"%[1]v лет"],
    [t!"%[1]v месяц", t!"%[1]v месяца", t!"%[1]v месяцев", t!"%[1]v месяцев"],
    [t!"%[1]v неделю", t!"%[1]v недели", t!"%[1]v недель", t!"%[1]v недель"],
    [t!"%[1]v день", t!"%[1]v дня", t!"%[1]v дней", t!"%[1]v дней"],
    [t!"%[1]v час", t!"%[1]v часа", t!"%[1]v часов", t!"%[1]v часов"],
    [t!"%[1]v минуту", t!"%[1]v минуты", t!"%[1]v минут", t!"%[1]v минут"],
    [t!"%[1]v год", t!"%[1]v года", t!"%[1]v лет", t!"%[1]v лет"],
    [t!"%[1]v месяц", t!"%[1]v месяца", t!"%[1]v месяцев", t!"%[1]v месяцев"],
    [t!"%[1]v неделю", t!"%[1]v недели", t!"%[1]v недель", t!"%[1]v недель"],
    [t!"%[1]v день", t!"%[1]v дня", t!"%[1]v дней", t!"%[1]v дней"],
    [t!"%[1]v час", t!"%[1]v часа", t!"%[1]v часов", t!"%[1]v часов"],
    [t!"%[1]v минуту", t!"%[1]v минуты", t!"%[1]v минут", t!"%[1]v минут"],
    [t!"%[1]v секунду назад", t!"%[1]v секунды назад", t!"%[1]v секунд назад", t!"%[1]v секунд назад"],
    [t!"%[1]v минуту назад", t!"%[1]v минуты назад", t!"%[1]v минут назад", t!"%[1]v минут назад"],
    [t!"%[1]v час назад", t!"%[1]v часа назад", t!"%[1]v часов назад", t!"%[1]v часов назад"],
    [t!"через %[1]v секунду", t!"через %[1]v секунды", t!"через %[1]v секунд", t!"через %[1]v секунд"],
    [t!"через %[1]v минуту", t!"через %[1]v минуты", t!"через %[1]v минут", t!"через %[1]v минут"],
    [t!"через %[1]v час", t!"через %[1]v часа", t!"через %[1]v часов", t!"через %[1]v часов"],
    [t!"%[1]d байт", t!"%[1]d байта", t!"%[1]d байт", t!"%[1]d байт"],
    [t!"%[1]s миллион", t!"%[1]s миллиона", t!"%[1]s миллионов", t!"%[1]s миллионов"],
    [t!"%[1]s миллиард", t!"%[1]s миллиарда", t!"%[1]s миллиардов", t!"%[1]s миллиардов"],
    [t!"%[1]s триллион", t!"%[1]s триллиона", t!"%[1]s триллионов", t!"%[1]s триллионов"],
    [t!"%[1]s квадриллион", t!"%[1]s квадриллиона", t!"%[1]s квадриллионов", t!"%[1]s квадриллионов"],
    [t!"%[1]s квинтиллион", t!"%[1]s квинтиллиона", t!"%[1]s квинтиллионов", t!"%[1]s квинтиллионов"],
    [t!"%[1]s секстиллион", t!"%[1]s секстиллиона", t!"%[1]s секстиллионов", t!"%[1]s секстиллионов"],
    [t!"%[1]s септиллион", t!"%[1]s септиллиона", t!"%[1]s септиллионов", t!"%[1]s септиллионов"],
    [t!"%[1]s октиллион", t!"%[1]s октиллиона", t!"%[1]s октиллионов", t!"%[1]s октиллионов"],
    [t!"%[1]s нониллион", t!"%[1]s нониллиона", t!"%[1]s нониллионов", t!"%[1]s нониллионов"],
    [t!"%[1]s дециллион", t!"%[1]s дециллиона", t!"%[1]s дециллионов", t!"%[1]s дециллионов"],
    [t!"%[1]s гугол", t!"%[1]s гугола", t!"%[1]s гуголов", t!"%[1]s гуголов"]]
  singular := [
    some t!"%[1]v назад", some t!"через %[1]v", some t!"%s КБ", some t!"%s МБ", some t!"%s ГБ", some t!"%s ТБ", some t!"%s ПБ", some t!"%v-й", some t!"%v-й", some t!"%v-й", some t!"%v-й", some t!"%v-й", some t!"%v-й", some t!"%v-й", some t!"%v-й", some t!"%v-й", some t!"%v-й", some t!"%v-й"]

/-- /repo/humanize/locale/sk/django.po. -/
def counts_sk : Counts where
  locale := loc_sk
  plural := [
    [t!"%[1]v rok", t!"%[1]v roky", t!"%[1]v rokov", t!"%[1]v rokov"],
    [t!"%[1]v mesiac", t!"%[1]v mesiace", t!"%[1]v mesiacov", t!"%[1]v mesiacov"],
    [t!"%[1]v týždeň", t!"%[1]v týždne", t!"%[1]v týždňov", t!"%[1]v týždňov"],
    [t!"%[1]v deň", t!"%[1]v dni", t!"%[1]v dní", t!"%[1]v dní"],
    [t!"%[1]v hodina", t!"%[1]v hodiny", t!"%[1]v hodín", t!"%[1]v hodiny"],
    [t!"%[1]v minúta", t!"%[1]v minúty", t!"%[1]v minút", t!"%[1]v minúty"],
    [t!"%[1]v rokom", t!"%[1]v rokmi", t!"%[1]v rokmi", t!"%[1]v rokmi"],
    [t!"%[1]v mesiacom", t!"%[1]v mesiacmi", t!"%[1]v mesiacmi", t!"%[1]v mesiacmi"],
    [t!"%[1]v týždňom", t!"%[1]v týždňami", t!"%[1]v týždňami", t!"%[1]v týždňami"],
    [t!"%[1]v dňom", t!"%[1]v dňami", t!"%[1]v dňami", t!"%[1]v dňami"],
    [t!"%[1]v hodinou", t!"%[1]v hodinami", t!"%[1]v hodinami", t!"%[1]v hodinami"],
    [t!"%[1]v minútou", t!"%[1]v minútami", t!"%[1]v minútami", t!"%[1]v minútami"],
    [t!"%[1]v rok", t!"%[1]v roky", t!"%[1]v rokov", t!"%[1]v rokov"],
    [t!"%[1]v mesiac", t!"%[1]v mesiace", t!"%[1]v mesiacov", t!"%[1]v mesiacov"],
    [t!"%[1]v týždeň", t!"%[1]v týždne", t!"%[1]v týždňov", t!"%[1]v týždňov"],
    [t!"%[1]v deň", t!"%[1]v dni", t!"%[1]v dní", t!"%[1]v dní"],
    [t!"%[1]v hodinu", t!"%[1]v hodiny", t!"%[1]v hodín", t!"%[1]v hodín"],
    [t!"%[1]v minútu", t!"%[1]v minúty", t!"%[1]v minút", t!"%[1]v minút"],
    [t!"pred sekundou", t!"pred %[1]v sekundami", t!"pred %[1]v sekundami", t!"pred %[1]v sekundami"],
    [t!"pred minútou", t!"pred %[1]v minútami", t!"pred %[1]v minútami", t!"pred %[1]v minútami"],
    [t!"pred hodinou", t!"pred %[1]v hodinami", t!"pred %[1]v hodinami", t!"pred %[1]v hodinami"],
    [t!"o sekundu", t!"o %[1]v sekundy", t!"o %[1]v sekúnd", t!"o %[1]v sekúnd"],
    [t!"o minútu", t!"o %[1]v minúty", t!"o %[1]v minút", t!"o %[1]v minút"],
    [t!"o hodinu", t!"o %[1]v hodiny", t!"o %[1]v hodín", t!"o %[1]v hodín"],
    [t!"%[1]d bajt", t!"%[1]d bajty", t!"%[1]d bajtov", t!"%[1]d bajtov"],
    [t!"%[1]s milión", t!"%[1]s milióny", t!"%[1]s miliónov", t!"%[1]s miliónov"],
    [t!"%[1]s miliarda", t!"%[1]s miliardy", t!"%[1]s miliárd", t!"%[1]s miliárd"],
    [t!"%[1]s bilión", t!"%[1]s bilióny", t!"%[1]s biliónov", t!"%[1]s biliónov"],
    [t!"%[1]s biliarda", t!"%[1]s biliardy", t!"%[1]s biliárd", t!"%[1]s biliárd"],
    [t!"%[1]s trilión", t!"%[1]s trilióny", t!"%[1]s triliónov", t!"%[1]s triliónov"],
    [t!"%[1]s triliarda", t!"%[1]s triliardy", t!"%[1]s triliárd", t!"%[1]s triliárd"],
    [t!"%[1]s kvadrilión", t!"%[1]s kvadrilióny", t!"%[1]s kvadriliónov", t!"%[1]s kvadriliónov"],
    [t!"%[1]s kvadriliarda", t!"%[1]s kvadriliardy", t!"%[1]s kvadriliárd", t!"%[1]s kvadriliárd"],
    [t!"%[1]s kvintilión", t!"%[1]s kvintilióny", t!"%[1]s kvintiliónov", t!"%[1]s kvintiliónov"],
    [t!"%[1]s kvintiliarda", t!"%[1]s kvintiliardy", t!"%[1]s kvintiliárd", t!"%[1]s kvintiliárd"],
    [t!"%[1]s googol", t!"%[1]s googol", t!"%[1]s googol", t!"%[1]s googol"]]
  singular := [
    some t!"pred %[1]v", some t!"o %[1]v", some t!"%s KB", some t!"%s MB", some t!"%s GB", some t!"%s TB", some t!"%s PB", some t!"%v.", some t!"%v.", some t!"%v.", some t!"%v.", some t!"%v.", some t!"%v.", some t!"%v.", some t!"%v.", some t!"%v.", some t!"%v.", some t!"%v."]

/-- /repo/humanize/locale/sl/django.po. -/
def counts_sl : Counts where
  locale := loc_sl
  plural := [
    [t!"%[1]v leto", t!"%[1]v leti", t!"%[1]v let", t!"%[1]v let"],
    [t!"%[1]v mesec", t!"%[1]v meseca ", t!"%[1]v mesecev", t!"%[1]v mesecev"],
    [t!"%[1]v teden", t!"%[1]v tedna", t!"%[1]v tednov", t!"%[1]v tednov"],
    [t!"%[1]v dan", t!"%[1]v dneva", t!"%[1]v dni", t!"%[1]v dni"],
    [t!"%[1]v uro", t!"%[1]v uri", t!"%[1]v ure", t!"%[1]v ur"],
    [t!"%[1]v minuto", t!"%[1]v minuti", t!"%[1]v minute", t!"%[1]v minut"],
    [t!"%[1]v leto", t!"%[1]v leti", t!"%[1]v let", t!"%[1]v let"],
    [t!"%[1]v mesec", t!"%[1]v meseca", t!"%[1]v mesecev", t!"%[1]v mesecev"],
    [t!"%[1]v teden", t!"%[1]v tedna", t!"%[1]v tednov", t!"%[1]v tednov"],
    [t!"%[1]v dan", t!"%[1]v dneva", t!"%[1]v dni", t!"%[1]v dni"],
    [t!"%[1]v ura", t!"%[1]v uri", t!"%[1]v ur", t!"%[1]v ur"],
    [t!"%[1]v minuta", t!"%[1]v minuti", t!"%[1]v minut", t!"%[1]v minut"],
    [t!"%[1]v leto", t!"%[1]v leti", t!"%[1]v let", t!"%[1]v let"],
    [t!"%[1]v mesec", t!"%[1]v meseca", t!"%[1]v mesecev", t!"%[1]v mesecev"],
    [t!"%[1]v teden", t!"%[1]v tedena", t!"%[1]v tedne", t!"%[1]v tedne"],
    [t!"%[1]v dan", t!"%[1]v dneva", t!"%[1]v dni", t!"%[1]v dni"],
    [t!"%[1]v ura", t!"%[1]v uri", t!"%[1]v ure", t!"%[1]v ure"],
    [t!"%[1]v minuta", t!"%[1]v minuti", t!"%[1]v minut", t!"%[1]v minut"],
    [t!"pred %[1]v sekundo", t!"pred %[1]v sekundama", t!"pred %[1]v sekundami", t!"pred %[1]v sekundami"],
    [t!"pred %[1]v minuto", t!"pred %[1]v minutama", t!"pred %[1]v minutami", t!"pred %[1]v minutami"],
    [t!"pred %[1]v uro", t!"pred %[1]v urama", t!"pred %[1]v urami", t!"pred %[1]v urami"],
    [t!"čez %[1]v sekundo", t!"čez %[1]v sekundi", t!"čez %[1]v sekunde", t!"čez %[1]v sekund"],
    [t!"čez %[1]v minuto", t!"čez %[1]v minuti", t!"čez %[1]v minute", t!"čez %[1]v minut"],
    [t!"čez %[1]v uro", t!"čez %[1]v uri", t!"čez %[1]v ure", t!"čez %[1]v ur"],
    [t!"%[1]d bajt", t!"%[1]d bajta", t!"%[1]d bajti", t!"%[1]d bajtov"],
    [t!"%[1]s milijon", t!"%[1]s milijona", t!"%[1]s milijoni", t!"%[1]s milijonov"],
    [t!"%[1]s miljarda", t!"%[1]s miljardi", t!"%[1]s miljarde", t!"%[1]s miljard"],
    [t!"%[1]s triljon", t!"%[1]s triljona", t!"%[1]s triljoni", t!"%[1]s triljonov"],
    [t!"%[1]s kvadrilijon", t!"%[1]s kvadrilijona", t!"%[1]s kvadrilijoni", t!"%[1]s kvadrilijonov"],
    [t!"%[1]s kvintilijon", t!"%[1]s kvintilijona", t!"%[1]s kvintilijoni", t!"%[1]s kvintilijonov"],
    [t!"%[1]s sekstilijon", t!"%[1]s sekstilijona", t!"%[1]s sekstilijoni", t!"%[1]s sekstilijonov"],
    [t!"%[1]s septilijon", t!"%[1]s septilijona", t!"%[1]s septilijoni", t!"%[1]s septilijonov"],
    [t!"%[1]s oktilijon", t!"%[1]s oktilijona", t!"%[1]s oktilijoni", t!"%[1]s oktilijonov"],
    [t!"%[1]s nonilijon", t!"%[1]s nonilijona", t!"%[1]s nonilijoni", t!"%[1]s nonilijonov"],
    [t!"%[1]s decilijon", t!"%[1]s decilijona", t!"%[1]s decilijoni", t!"%[1]s decilijonov"],
    [t!"%[1]s gugol", t!"%[1]s gugola", t!"%[1]s gugoli", t!"%[1]s gugolov"]]
  singular := [
    some t!"pred %[1]v", some t!"%[1]vod zdaj", some t!"%s KB", some t!"%s MB", some t!"%s GB", some t!"%s TB", some t!"%s PB", some t!"", some t!"", some t!"", some t!"", some t!"", some t!"", some t!"", some t!"", some t!"", some t!"", some t!""]

/-- /repo/humanize/locale/sq/django.po. -/
def counts_sq : Counts where
  locale := loc_sq
  plural := [
    [t!"%[1]v vit", t!"%[1]v vjet"],
    [t!"%[1]v muaj", t!"%[1]v muaj"],
    [t!"%[1]v javë", t!"%[1]v javë"],
    [t!"%[1]v ditë", t!"%[1]v ditë"],
    [t!"%[1]v orë", t!"%[1]v orë"],
    [t!"%[1]v minutë", t!"%[1]v minuta"],
    [t!"%[1]v vit", t!"%[1]v vjet"],
    [t!"%[1]v muaj", t!"%[1]v muaj"],
    [t!"%[1]v javë", t!"%[1]v javë"],
    [t!"%[1]v ditë", t!"%[1]v ditë"],
    [t!"%[1]v orë", t!"%[1]v orë"],
    [t!"%[1]v minutë", t!"%[1]v minuta"],
    [t!"%[1]v vjet", t!"%[1]v vjet"],
    [t!"%[1]v muaj", t!"%[1]v muaj"],
    [t!"%[1]v javë", t!"%[1]v javë"],
    [t!"%[1]v ditë", t!"%[1]v ditë"],
    [t!"%[1]v orë", t!"%[1]v orë"],
    [t!"%[1]v minutë", t!"%[1]v minuta"],
    [t!"një sekondë më parë", t!"%[1]v sekonda më parë"],
    [t!"një minutë më parë", t!"%[1]v minuta më parë"],
    [t!"një orë më parë", t!"%[1]v orë më parë"],
    [t!"një sekondë më parë", t!"%[1]v sekonda më parë"],
    [t!"për një minutë", t!"për %[1]v minuta"],
    [t!"për një orë", t!"për %[1]v orë"],
    [t!"%[1]d bajt", t!"%[1]d bajte"],
    [t!"%[1]s milion", t!"%[1]s milionë"],
    [t!"%[1]s miliard", t!"%[1]s miliardë"],
    [t!"%[1]s trilion", t!"%[1]s trilionë"],
    [t!"%[1]s kuadrilion", t!"%[1]s kuadrilionë"],
    [t!"%[1]s kuintilionë", t!"%[1]s kuintilionë"],
    [t!"%[1]s sestilion", t!"%[1]s sestilionë"],
    [t!"%[1]s septilion", t!"%[1]s septilionë"],
    [t!"%[1]s oktilion", t!"%[1]s oktilionë"],
    [t!"%[1]s nonilion", t!"%[1]s nonilionë"],
    [t!"%[1]s decilion", t!"%[1]s decilionë"],
    [t!"%[1]s gugol", t!"%[1]s gugolë"]]
  singular := [
    some t!"%[1]v më parë", some t!"%[1]v nga tani", some t!"%s KB", some t!"%s MB", some t!"%s GB", some t!"%s TB", some t!"%s PB", some t!"-të", some t!"-të", some t!"", some t!"-të", some t!"-të", some t!"-të", some t!"-të", some t!"-të", some t!"-të", some t!"-të", some t!"-të"]

/-- /repo/humanize/locale/sr/django.po. -/
def counts_sr : Counts where
  locale := loc_sr
  plural := [
    [t!"%[1]v година", t!"%[1]v године", t!"%[1]v година"],
    [t!"%[1]v месец", t!"%[1]v месеца", t!"%[1]v месеци"],
    [t!"%[1]v недеља", t!"%[1]v недеље", t!"%[1]v недеља"],
    [t!"%[1]v дан", t!"%[1]v дана", t!"%[1]v дана"],
    [t!"%[1]v сат", t!"%[1]v сата", t!"%[1]v сати"],
    [t!"%[1]v минут", t!"%[1]v минута", t!"%[1]v минута"],
    [t!"%[1]v година", t!"%[1]v године", t!"%[1]v година"],
    [t!"%[1]v месец", t!"%[1]v месеца", t!"%[1]v месеци"],
    [t!"%[1]v недеља", t!"%[1]v недеље", t!"%[1]v недеља"],
    [t!"%[1]v дан", t!"%[1]v дана", t!"%[1]v дана"],
    [t!"%[1]v сат", t!"%[1]v сата", t!"%[1]v сати"],
    [t!"%[1]v минут", t!"%[1]v минута", t!"%[1]v минута"],
    [t!"%[1]v година", t!"%[1]v године", t!"%[1]v година"],
    [t!"%[1]v месец", t!"%[1]v месеца", t!"%[1]v месеци"],
    [t!"%[1]v недеља", t!"%[1]v недеље", t!"%[1]v недеља"],
    [t!"%[1]v дан", t!"%[1]v дана", t!"%[1]v дана"],
    [t!"%[1]v сат", t!"%[1]v сата", t!"%[1]v сати"],
    [t!"%[1]v минут", t!"%[1]v минута", t!"%[1]v минута"],
    [t!"пре %[1]v секунде", t!"пре %[1]v секунде", t!"пре %[1]v секунди"],
    [t!"пре %[1]v минута", t!"пре %[1]v минута", t!"пре %[1]v минута"],
    [t!"пре %[1]v сата", t!"пре %[1]v сата", t!"пре %[1]v сати"],
    [t!"%[1]v секунда од сад", t!"%[1]v секунде од сада", t!"%[1]v секунди од сада"],
    [t!"%[1]v минут од сад", t!"%[1]v минута од сада", t!"%[1]v минута од сада"],
    [t!"%[1]v сат од сад", t!"%[1]v сата од сада", t!"%[1]v сати од сада"],
    [t!"%[1]d бајт", t!"%[1]d бајта", t!"%[1]d бајтова"],
    [t!"%[1]s милион", t!"%[1]s милиона", t!"%[1]s милиона"],
    [t!"%[1]s милијарда", t!"%[1]s милијарде", t!"%[1]s милијарди"],
    [t!"%[1]s билион", t!"%[1]s билиона", t!"%[1]s билиона"],
    [t!"%[1]s билијарда", t!"%[1]s билијарде", t!"%[1]s билијарди"],
    [t!"%[1]s трилион", t!"%[1]s трилиона", t!"%[1]s трилиона"],
    [t!"%[1]s трилијарда", t!"%[1]s трилијарде", t!"%[1]s трилијарди"],
    [t!"%[1]s квадрилион", t!"%[1]s квадрилиона", t!"%[1]s квадрилиона"],
    [t!"%[1]s квадрилијарда", t!"%[1]s квадрилијарде", t!"%[1]s квадрилијарди"],
    [t!"%[1]s квантилион", t!"%[1]s квантилиона", t!"%[1]s квантилиона"],
    [t!"%[1]s квантилијарда", t!"%[1]s квантилијарде", t!"%[1]s квантилијарди"],
    [t!"%[1]s гугол", t!"%[1]s гугола", t!"%[1]s гугола"]]
  singular := [
    some t!"пре %[1]v", some t!"%[1]v од сад", some t!"%s KB", some t!"%s MB", some t!"%s GB", some t!"%s TB", some t!"%s PB", some t!"%v-ти", some t!"%v-ти", some t!"%v-и", some t!"%v-и", some t!"%v-и", some t!"%v-и", some t!"%v-и", some t!"%v-и", some t!"%v-и", some t!"%v-и", some t!"%v-и"]

/-- /repo/humanize/locale/srLatn/django.po. -/
def counts_srLatn : Counts where
  locale := loc_srLatn
  plural := [
    [t!"%[1]v godina", t!"%[1]v godine", t!"%[1]v godina"],
    [t!"%[1]v mesec", t!"%[1]v meseca", t!"%[1]v meseci"],
    [t!"%[1]v nedelja", t!"%[1]v nedelje", t!"%[1]v nedelja"],
    [t!"%[1]v dan", t!"%[1]v dana", t!"%[1]v dana"],
    [t!"%[1]v sat", t!"%[1]v sata", t!"%[1]v sati"],
    [t!"%[1]v minut", t!"%[1]v minuta", t!"%[1]v minuta"],
    [t!"%[1]v godina", t!"%[1]v godine", t!"%[1]v godina"],
    [t!"%[1]v mesec", t!"%[1]v meseca", t!"%[1]v meseci"],
    [t!"%[1]v nedelja", t!"%[1]v nedelje", t!"%[1]v nedelja"],
    [t!"%[1]v dan", t!"%[1]v dana", t!"%[1]v dana"],
    [t!"%[1]v sat", t!"%[1]v sata", t!"%[1]v sati"],
    [t!"%[1]v minut", t!"%[1]v minuta", t!"%[1]v minuta"],
    [t!"%[1]v godina", t!"%[1]v godine", t!"%[1]v godina"],
    [t!"%[1]v mesec", t!"%[1]v meseca", t!"%[1]v meseci"],
    [t!"%[1]v nedelja", t!"%[1]v nedelje", t!"%[1]v nedelja"],
    [t!"%[1]v dan", t!"%[1]v dana", t!"%[1]v dana"],
    [t!"%[1]v sat", t!"%[1]v sata", t!"%[1]v sati"],
    [t!"%[1]v minut", t!"%[1]v minuta", t!"%[1]v minuta"],
    [t!"pre sekund", t!"pre %[1]v sekunde", t!"pre %[1]v sekundi"],
    [t!"pre minut", t!"pre %[1]v minuta", t!"pre %[1]v minuta"],
    [t!"pre sat", t!"pre %[1]v sata", t!"pre %[1]v sati"],
    [t!"sekund od sad", t!"%[1]v sekunde od sada", t!"%[1]v sekundi od sada"],
    [t!"minut od sad", t!"%[1]v minuta od sada", t!"%[1]v minuta od sada"],
    [t!"sat od sad", t!"%[1]v sata od sada", t!"%[1]v sati od sada"],
    [t!"%[1]d bajt", t!"%[1]d bajta", t!"%[1]d bajtova"],
    [t!"%[1]s milion", t!"%[1]s miliona", t!"%[1]s miliona"],
    [t!"%[1]s milijarda", t!"%[1]s milijarde", t!"%[1]s milijardi"],
    [t!"%[1]s bilion", t!"%[1]s biliona", t!"%[1]s biliona"],
    [t!"%[1]s bilijarda", t!"%[1]s bilijarde", t!"%[1]s bilijardi"],
    [t!"%[1]s trilion", t!"%[1]s triliona", t!"%[1]s triliona"],
    [t!"%[1]s trilijarda", t!"%[1]s trilijarde", t!"%[1]s trilijardi"],
    [t!"%[1]s kvadrilion", t!"%[1]s kvadriliona", t!"%[1]s kvadriliona"],
    [t!"%[1]s kvadrilijarda", t!"%[1]s kvadrilijarde", t!"%[1]s kvadrilijardi"],
    [t!"%[1]s kvantilion", t!"%[1]s kvantiliona", t!"%[1]s kvantiliona"],
    [t!"%[1]s kvantilijarda", t!"%[1]s kvantilijarde", t!"%[1]s kvantilijardi"],
    [t!"%[1]s gugol", t!"%[1]s gugola", t!"%[1]s gugola"]]
  singular := [
    some t!"pre %[1]v", some t!"%[1]v od sad", some t!"%s KB", some t!"%s MB", some t!"%s GB", some t!"%s TB", some t!"%s PB", some t!"%v-ti", some t!"%v-ti", some t!"%v-i", some t!"%v-i", some t!"%v-i", some t!"%v-i", some t!"%v-i", some t!"%v-i", some t!"%v-i", some t!"%v-i", some t!"%v-i"]

/-- /repo/humanize/locale/sv/django.po. -/
def counts_sv : Counts where
  locale := loc_sv
  plural := [
    [t!"%[1]v år", t!"%[1]v år"],
    [t!"%[1]v månad", t!"%[1]v månader"],
    [t!"%[1]v vecka", t!"%[1]v veckor"],
    [t!"%[1]v dag", t!"%[1]v dagar"],
    [t!"%[1]v timme", t!"%[1]v timmar"],
    [t!"%[1]v minut", t!"%[1]v minuter"],
    [t!"%[1]v år", t!"%[1]v år"],
    [t!"%[1]v månad", t!"%[1]v månader"],
    [t!"%[1]v vecka", t!"%[1]v veckor"],
    [t!"%[1]v dag", t!"%[1]v dagar"],
    [t!"%[1]v timme", t!"%[1]v timmar"],
    [t!"%[1]v minut", t!"%[1]v minuter"],
    [t!"%[1]v år", t!"%[1]v år"],
    [t!"%[1]v månad", t!"%[1]v månader"],
    [t!"%[1]v vecka", t!"%[1]v veckor"],
    [t!"%[1]v dag", t!"%[1]v dagar"],
    [t!"%[1]v timme", t!"%[1]v timmar"],
    [t!"%[1]v minut", t!"%[1]v minuter"],
    [t!"en sekund sedan", t!"%[1]v sekunder sedan"],
    [t!"en minut sedan", t!"%[1]v minuter sedan"],
    [t!"en timme sedan", t!"%[1]v timmar sedan"],
    [t!"en sekund från nu", t!"om %[1]v sekunder"],
    [t!"en minut från nu", t!"om %[1]v minuter"],
    [t!"en timme från nu", t!"om %[1]v timmar"],
    [t!"%[1]d byte", t!"%[1]d byte"],
    [t!"%[1]s miljon", t!"%[1]s miljoner"],
    [t!"%[1]s miljard", t!"%[1]s miljarder"],
    [t!"%[1]s triljon", t!"%[1]s triljoner"],
    [t!"%[1]s biljard", t!"%[1]s biljarder"],
    [t!"%[1]s kvintiljon", t!"%[1]s kvintiljoner"],
    [t!"%[1]s triljard", t!"%[1]s triljarder"],
    [t!"%[1]s kvadriljon", t!"%[1]s kvadriljoner"],
    [t!"%[1]s kvadriljard", t!"%[1]s kvadriljarder"],
    [t!"%[1]s kvintiljon", t!"%[1]s kvintiljoner"],
    [t!"%[1]s kvintiljard", t!"%[1]s kvintiljarder"],
    [t!"%[1]s googol", t!"%[1]s googoler"]]
  singular := [
    some t!"%[1]v sedan", some t!"om %[1]v", some t!"%s kB", some t!"%s MB", some t!"%s GB", some t!"%s TB", some t!"%s PB", some t!"%v:e", some t!"%v:e", some t!"%v:a", some t!"%v:a", some t!"%v:e", some t!"%v:e", some t!"%v:e", some t!"%v:e", some t!"%v:e", some t!"%v:e", some t!"%v:e"]

/-- /repo/humanize/locale/sw/django.po. -/
def counts_sw : Counts where
  locale := loc_sw
  plural := [
    [],
    [],
    [],
    [],
    [],
    [],
    [],
    [],
    [],
    [],
    [],
    [],
    [],
    [],
    [],
    [],
    [],
    [],
    [t!"Sekunde iliyopita", t!"Sekunde %[1]v zilizopita"],
    [t!"Dakika iliyopita", t!"Dakika %[1]v zilizopita"],
    [t!"Saa lililopita", t!"Masaa %[1]v yaliyopita"],
    [t!"Sekunde moja kutoka sasa", t!"Sekunde %[1]v kutoka sasa"],
    [t!"Dakika moja kutoka sasa", t!"Dakika %[1]v kutoka sasa"],
    [t!"Saa limoja kutoka sasa ", t!"Masaa %[1]v kutoka sasa"],
    [t!"baiti %[1]d", t!"baiti %[1]d"],
    [t!"milioni %[1]s", t!"milioni %[1]s"],
    [t!"bilioni %[1]s", t!"bilioni %[1]s"],
    [t!"trilioni %[1]s", t!"trilioni %[1]s"],
    [t!"kuadrilioni %[1]s", t!"kuadrilioni %[1]s"],
    [t!"kuintilioni %[1]s", t!"kuintilioni %[1]s"],
    [t!"seksitilioni %[1]s", t!"seksitilioni %[1]s"],
    [t!"septilioni %[1]s", t!"septilioni %[1]s"],
    [t!"oktilioni %[1]s", t!"oktilioni %[1]s"],
    [t!"nonilioni %[1]s", t!"nonilioni %[1]s"],
    [t!"desilioni %[1]s", t!"desilioni %[1]s"],
    [t!"gogoli %[1]s", t!"gogoli %[1]s"]]
  singular := [
    none, none, some t!"KB %s", some t!"MB %s", some t!"GB %s", some t!"TB %s", some t!"PB %s", none, none, none, none, none, none, none, none, none, none, none]

/-- /repo/humanize/locale/ta/django.po. -/
def counts_ta : Counts where
  locale := loc_ta
  plural := [
    [],
    [],
    [],
    [],
    [],
    [],
    [],
    [],
    [],
    [],
    [],
    [],
    [],
    [],
    [],
    [],
    [],
    [],
    [t!"", t!""],
    [t!"", t!""],
    [t!"", t!""],
    [t!"", t!""],
    [t!"", t!""],
    [t!"", t!""],
    [t!"", t!""],
    [t!"", t!""],
    [t!"", t!""],
    [t!"", t!""],
    [t!"", t!""],
    [t!"", t!""],
    [t!"", t!""],
    [t!"", t!""],
    [t!"", t!""],
    [t!"", t!""],
    [t!"", t!""],
    [t!"", t!""]]
  singular := [
    none, none, some t!"", some t!"", some t!"", some t!"", some t!"", none, none, none, none, none, none, none, none, none, none, none]

/-- /repo/humanize/locale/te/django.po. -/
def counts_te : Counts where
  locale := loc_te
  plural := [
    [],
    [],
    [],
    [],
    [],
    [],
    [],
    [],
    [],
    [],
    [],
    [],
    [],
    [],
    [],
    [],
    [],
    [],
    [t!"", t!""],
    [t!"", t!""],
    [t!"", t!""],
    [t!"", t!""],
    [t!"", t!""],
    [t!"", t!""],
    [t!"%[1]d బైటు", t!"%[1]d బైట్లు"],
    [t!"", t!""],
    [t!"", t!""],
    [t!"", t!""],
    [t!"", t!""],
    [t!"", t!""],
    [t!"", t!""],
    [t!"", t!""],
    [t!"", t!""],
    [t!"", t!""],
    [t!"", t!""],
    [t!"", t!""]]
  singular := [
    none, none, some t!"%s కిబై", some t!"%s మెబై", some t!"%s గిబై", some t!"", some t!"", none, none, none, none, none, none, none, none, none, none, none]

/-- /repo/humanize/locale/tg/django.po. -/
def counts_tg : Counts where
  locale := loc_tg
  plural := [
    [],
    [],
    [],
    [],
    [],
    [],
    [],
    [],
    [],
    [],
    [],
    [],
    [],
    [],
    [],
    [],
    [],
    [],
    [t!"", t!""],
    [t!"", t!""],
    [t!"", t!""],
    [t!"", t!""],
    [t!"", t!""],
    [t!"", t!""],
    [t!"", t!""],
    [t!"", t!""],
    [t!"", t!""],
    [t!"", t!""],
    [t!"", t!""],
    [t!"", t!""],
    [t!"", t!""],
    [t!"", t!""],
    [t!"", t!""],
    [t!"", t!""],
    [t!"", t!""],
    [t!"", t!""]]
  singular := [
    some t!"%[1]v пеш", some t!"баъд аз %[1]v", some t!"%s КБ", some t!"%s МБ", some t!"%s ГБ", some t!"%s ТБ", some t!"%s ПБ", some t!"%v-ум", some t!"%v-ум", some t!"%v-ум", some t!"%v-ум", some t!"%v-ум", some t!"%v-ум", some t!"%v-ум", some t!"%v-ум", some t!"%v-ум", some t!"%v-ум", some t!"%v-ум"]

/-- /repo/humanize/locale/th/django.po. -/
def counts_th : Counts where
  locale := loc_th
  plural := [
    [],
    [],
    [],
    [],
    [],
    [],
    [],
    [],
    [],
    [],
    [],
    [],
    [],
    [],
    [],
    [],
    [],
    [],
    [t!"%[1]v วินาทีที่ผ่านมา", t!""],
    [t!"%[1]v นาทีที่ผ่านมา", t!""],
    [t!"%[1]v ชั่วโมงที่ผ่านมา", t!""],
    [t!"%[1]v วินาทีต่อจากนี้", t!""],
    [t!"%[1]v นาทีต่อจากนี้", t!""],
    [t!"%[1]v ชั่วโมงต่อจากนี้", t!""],
    [t!"%[1]d ไบต์", t!""],
    [t!"%[1]s ล้าน", t!""],
    [t!"%[1]s พันล้าน", t!""],
    [t!" %[1]s  ล้านล้าน", t!""],
    [t!"%[1]s quadrillion", t!""],
    [t!"%[1]s quintillion", t!""],
    [t!"%[1]s sextillion", t!""],
    [t!"%[1]s septillion", t!""],
    [t!"%[1]s octillion", t!""],
    [t!"%[1]s nonillion", t!""],
    [t!"%[1]s decillion", t!""],
    [t!"%[1]s googol", t!""]]
  singular := [
    some t!"", some t!"", some t!"%s KB", some t!"%s MB", some t!"%s GB", some t!"%s TB", some t!"%s PB", some t!"", some t!"", some t!"", some t!"", some t!"", some t!"", some t!"", some t!"", some t!"", some t!"", some t!""]

/-- /repo/humanize/locale/tk/django.po. -/
def counts_tk : Counts where
  locale := loc_tk
  plural := [
    [t!"%[1]v ýyl", t!"%[1]v ýyl"],
    [t!"%[1]v aý", t!"%[1]v aý"],
    [t!"%[1]v hepde", t!"%[1]v hepde"],
    [t!"%[1]v gün", t!"%[1]v gün"],
    [t!"%[1]v sagat", t!"%[1]v sagat"],
    [t!"%[1]v minut", t!"%[1]v minut"],
    [t!"%[1]v ýyl", t!"%[1]v ýyl"],
    [t!"%[1]v aý", t!"%[1]v aý"],
    [t!"%[1]v hepde", t!"%[1]v hepde"],
    [t!"%[1]v gün", t!"%[1]v gün"],
    [t!"%[1]v sagat", t!"%[1]v sagat"],
    [t!"%[1]v minut", t!"%[1]v minut"],
    [t!"%[1]v ýyl", t!"%[1]v ýyl"],
    [t!"%[1]v aý", t!"%[1]v aý"],
    [t!"%[1]v hepde", t!"%[1]v hepde"],
    [t!"%[1]v gün", t!"%[1]v gün"],
    [t!"%[1]v sagat", t!"%[1]v sagat"],
    [t!"%[1]v minut", t!"%[1]v minut"],
    [t!"bir sekunt öň", t!"%[1]v sekunt öň"],
    [t!"bir minut öň", t!"%[1]v minut öň"],
    [t!"bir sagat öň", t!"%[1]v sagat öň"],
    [t!"şu wagtdan bir sekunt soň", t!"şu wagtdan %[1]v sekunt soň"],
    [t!"şu wagtdan bir minut soň", t!"şu wagtdan %[1]v minut soň"],
    [t!"şu wagtdan bir sagat soň", t!"şu wagtdan  %[1]v sagat soň"],
    [t!"%[1]d baýt", t!"%[1]d baýt"],
    [t!"%[1]s million", t!"%[1]s million"],
    [t!"%[1]s milliard", t!"%[1]s milliard"],
    [t!"%[1]s trillion", t!"%[1]s trillion"],
    [t!"%[1]s kwadrillion", t!"%[1]s kwadrillion"],
    [t!"%[1]s kwintillion", t!"%[1]s kwintillion"],
    [t!"%[1]s sekstillion", t!"%[1]s sekstillion"],
    [t!"%[1]s septillion", t!"%[1]s septillion"],
    [t!"%[1]s oktillion", t!"%[1]s oktillion"],
    [t!"%[1]s nonillion", t!"%[1]s nonillion"],
    [t!"%[1]s desillion", t!"%[1]s desillion"],
    [t!"%[1]s googol", t!"%[1]s googol"]]
  singular := [
    some t!"%[1]v öň", some t!"şu wagtdan %[1]v soň", some t!"%s KB", some t!"%s MB", some t!"%s GB", some t!"%s TB", some t!"%s PB", some t!"%v-nji", some t!"%v-nji", some t!"%v-inji", some t!"%v-nji", some t!"%v-nji", some t!"%v-nji", some t!"%v-nji", some t!"%v-njy", some t!"%v-nji", some t!"%v-nji", some t!"%v-njy"]

/-- /repo/humanize/locale/tr/django.po. -/
def counts_tr : Counts where
  locale := loc_tr
  plural := [
    [t!"%[1]v yıl", t!"%[1]v yıl"],
    [t!"%[1]v ay", t!"%[1]v ay"],
    [t!"%[1]v hafta", t!"%[1]v hafta"],
    [t!"%[1]v gün", t!"%[1]v gün"],
    [t!"%[1]v saat", t!"%[1]v saat"],
    [t!"%[1]v dakika", t!"%[1]v dakika"],
    [t!"%[1]v yıl", t!"%[1]v yıl"],
    [t!"%[1]v ay", t!"%[1]v ay"],
    [t!"%[1]v hafta", t!"%[1]v hafta"],
    [t!"%[1]v gün", t!"%[1]v gün"],
    [t!"%[1]v saat", t!"%[1]v saat"],
    [t!"%[1]v dakika", t!"%[1]v dakika"],
    [t!"%[1]v yıl", t!"%[1]v yıl"],
    [t!"%[1]v ay", t!"%[1]v ay"],
    [t!"%[1]v hafta", t!"%[1]v hafta"],
    [t!"%[1]v gün", t!"%[1]v gün"],
    [t!"%[1]v saat", t!"%[1]v saat"],
    [t!"%[1]v dakika", t!"%[1]v dakika"],
    [t!"bir saniye önce", t!"%[1]v saniye önce"],
    [t!"bir dakika önce", t!"%[1]v dakika önce"],
    [t!"bir saat önce", t!"%[1]v saat önce"],
    [t!"şu andan itibaren bir saniye", t!"şu andan itibaren %[1]v saniye"],
    [t!"şu andan itibaren bir dakika", t!"şu andan itibaren %[1]v dakika"],
    [t!"şu andan itibaren bir saat", t!"şu andan itibaren %[1]v saat"],
    [t!"%[1]d bayt", t!"%[1]d bayt"],
    [t!"%[1]s milyon", t!"%[1]s milyon"],
    [t!"%[1]s milyar", t!"%[1]s milyar"],
    [t!"%[1]s trilyon", t!"%[1]s trilyon"],
    [t!"%[1]s katrilyon", t!"%[1]s katrilyon"],
    [t!"%[1]s kentilyon", t!"%[1]s kentilyon"],
    [t!"%[1]s seksilyon", t!"%[1]s seksilyon"],
    [t!"%[1]s septilyon", t!"%[1]s septilyon"],
    [t!"%[1]s oktilyon", t!"%[1]s oktilyon"],
    [t!"%[1]s nonilyon", t!"%[1]s nonilyon"],
    [t!"%[1]s desilyon", t!"%[1]s desilyon"],
    [t!"%[1]s googol", t!"%[1]s googol"]]
  singular := [
    some t!"%[1]v önce", some t!"şu andan itibaren %[1]v", some t!"%s KB", some t!"%s MB", some t!"%s GB", some t!"%s TB", some t!"%s PB", some t!"%v.", some t!"%v.", some t!"%v.", some t!"%v.", some t!"%v.", some t!"%v.", some t!"%v.", some t!"%v.", some t!"%v.", some t!"%v.", some t!"%v."]

/-- /repo/humanize/locale/tt/django.po. -/
def counts_tt : Counts where
  locale := loc_tt
  plural := [
    [],
    [],
    [],
    [],
    [],
    [],
    [],
    [],
    [],
    [],
    [],
    [],
    [],
    [],
    [],
    [],
    [],
    [],
    [t!"", t!""],
    [t!"", t!""],
    [t!"", t!""],
    [t!"", t!""],
    [t!"", t!""],
    [t!"", t!""],
    [t!"%[1]d байт", t!""],
    [t!"%[1]s миллион", t!""],
    [t!"%[1]s миллиард", t!""],
    [t!"%[1]s триллион", t!""],
    [t!"%[1]s квадриллион", t!""],
    [t!"%[1]s квинтиллион", t!""],
    [t!"%[1]s секстиллион", t!""],
    [t!"%[1]s септиллион", t!""],
    [t!"%[1]s октиллион", t!""],
    [t!"%[1]s нониллион", t!""],
    [t!"%[1]s дециллион", t!""],
    [t!"%[1]s гугол", t!""]]
  singular := [
    none, none, some t!"%s КБ", some t!"%s МБ", some t!"%s ГБ", some t!"%s ТБ", some t!"%s ПБ", none, none, none, none, none, none, none, none, none, none, none]

/-- /repo/humanize/locale/udm/django.po. -/
def counts_udm : Counts where
  locale := loc_udm
  plural := [
    [],
    [],
    [],
    [],
    [],
    [],
    [],
    [],
    [],
    [],
    [],
    [],
    [],
    [],
    [],
    [],
    [],
    [],
    [t!"", t!""],
    [t!"", t!""],
    [t!"", t!""],
    [t!"", t!""],
    [t!"", t!""],
    [t!"", t!""],
    [t!"%[1]d байт", t!""],
    [t!"", t!""],
    [t!"", t!""],
    [t!"", t!""],
    [t!"", t!""],
    [t!"", t!""],
    [t!"", t!""],
    [t!"", t!""],
    [t!"", t!""],
    [t!"", t!""],
    [t!"", t!""],
    [t!"", t!""]]
  singular := [
    none, none, some t!"%s КБ", some t!"%s МБ", some t!"%s МБ", some t!"%s ТБ", some t!"%s ПБ", none, none, none, none, none, none, none, none, none, none, none]

/-- /repo/humanize/locale/ug/django.po. -/
def counts_ug : Counts where
  locale := loc_ug
  plural := [
    [t!"%[1]v يىل", t!"%[1]v يىل"],
    [t!"%[1]v ئاي", t!"%[1]v ئاي"],
    [t!"%[1]v ھەپتە", t!"%[1]v ھەپتە"],
    [t!"%[1]v كۈن", t!"%[1]v كۈن"],
    [t!"%[1]v سائەت", t!"%[1]v سائەت"],
    [t!"%[1]v مىنۇت", t!"%[1]v مىنۇت"],
    [t!"%[1]v يىل", t!"%[1]v يىل"],
    [t!"%[1]v ئاي", t!"%[1]v ئاي"],
    [t!"%[1]v ھەپتە", t!"%[1]v ھەپتە"],
    [t!"%[1]v كۈن", t!"%[1]v كۈن"],
    [t!"%[1]v سائەت", t!"%[1]v سائەت"],
    [t!"%[1]v مىنۇت", t!"%[1]v مىنۇت"],
    [t!"%[1]v يىل", t!"%[1]v يىل"],
    [t!"%[1]v ئاي", t!"%[1]v ئاي"],
    [t!"%[1]v ھەپتە", t!"%[1]v ھەپتە"],
    [t!"%[1]v كۈن", t!"%[1]v كۈن"],
    [t!"%[1]v سائەت", t!"%[1]v سائەت"],
    [t!"%[1]v مىنۇت", t!"%[1]v مىنۇت"],
    [t!"1 سېكۇنت ئىلگىرى", t!"%[1]v سېكۇنت ئىلگىرى"],
    [t!"1 مىنۇت ئىلگىرى", t!"%[1]v مىنۇت ئىلگىرى"],
    [t!"1 سائەت ئىلگىرى", t!"%[1]v سائەت ئىلگىرى"],
    [t!"1 سېكۇنتتىن كېيىن", t!"%[1]v سېكۇنتتىن كېيىن"],
    [t!"1 مىنۇتتىن كېيىن", t!"%[1]v مىنۇتتىن كېيىن"],
    [t!"1 سائەتتىن كېيىن", t!"%[1]v سائەتتىن كېيىن"],
    [t!"%[1]d بايىت", t!"%[1]d بايىت"],
    [t!"%[1]s مىليون", t!"%[1]s مىليون"],
    [t!"%[1]s مىليارد", t!"%[1]s مىليارد"],
    [t!"%[1]s تىرىليون", t!"%[1]s تىرىليون"],
    [t!"%[1]s كۋادىرىللىيۇن", t!"%[1]s كۋادىرىللىيۇن"],
    [t!"%[1]s كۈيىنتىللىيون", t!"%[1]s كۈيىنتىللىيون"],
    [t!"%[1]s سېكستىللىيون", t!"%[1]s سېكستىللىيون"],
    [t!"%[1]s سېكستىللىيون", t!"%[1]s سېكستىللىيون"],
    [t!"%[1]s ئوكتىلىيون", t!"%[1]s ئوكتىلىيون"],
    [t!"%[1]s نونىللىيون", t!"%[1]s نونىللىيون"],
    [t!"%[1]s دېكىللىيون", t!"%[1]s دېكىللىيون"],
    [t!"%[1]s گۇگول ", t!"%[1]s گۇگول"]]
  singular := [
    some t!"%[1]v ئىلگىرى", some t!"%[1]v دىن كېيىن", some t!"%s كىلوبايت", some t!"%sمېگا بايىت", some t!"%sگىگا بايىت", some t!"%s تېرا بايت", some t!"%s پېتا بايىت", some t!"%vجى", some t!"%vجى", some t!"%vجى", some t!"%vجى", some t!"%vجى", some t!"%vجى", some t!"%vجى", some t!"%vجى", some t!"%vجى", some t!"%vجى", some t!"%vجى"]

/-- /repo/humanize/locale/uk/django.po. -/
def counts_uk : Counts where
  locale := loc_uk
  plural := [
    [t!"%[1]v рік", t!"%[1]v роки", t!"%[1]v років", t!"%[1]v років"],
    [t!"%[1]v місяць", t!"%[1]v місяці", t!"%[1]v місяців", t!"%[1]v місяців"],
    [t!"%[1]v тиждень", t!"%[1]v тижні", t!"%[1]v тижнів", t!"%[1]v тижнів"],
    [t!"%[1]v день", t!"%[1]v дні", t!"%[1]v днів", t!"%[1]v днів"],
    [t!"%[1]v година", t!"%[1]v години", t!"%[1]v годин", t!"%[1]v годин"],
    [t!"%[1]v хвилина", t!"%[1]v хвилини", t!"%[1]v хвилин", t!"%[1]v хвилин"],
    [t!"%[1]v рік", t!"%[1]v роки", t!"%[1]v років", t!"%[1]v років"],
    [t!"%[1]v місяць", t!"%[1]v місяці", t!"%[1]v місяців", t!"%[1]v місяців"],
    [t!"%[1]v тиждень", t!"%[1]v тижні", t!"%[1]v тижнів", t!"%[1]v тижнів"],
    [t!"%[1]v день", t!"%[1]v дні", t!"%[1]v днів", t!"%[1]v днів"],
    [t!"%[1]v година", t!"%[1]v години", t!"%[1]v годин", t!"%[1]v годин"],
    [t!"%[1]v хвилина", t!"%[1]v хвилини", t!"%[1]v хвилин", t!"%[1]v хвилин"],
    [t!"%[1]v рік", t!"%[1]v роки", t!"%[1]v років", t!"%[1]v років"],
    [t!"%[1]v місяць", t!"%[1]v місяці", t!"%[1]v місяців", t!"%[1]v місяців"],
    [t!"%[1]v тиждень", t!"%[1]v тижні", t!"%[1]v тижнів", t!"%[1]v тижнів"],
    [t!"%[1]v день", t!"%[1]v дні", t!"%[1]v днів", t!"%[1]v днів"],
    [t!"%[1]v година", t!"%[1]v години", t!"%[1]v годин", t!"%[1]v годин"],
    [t!"%[1]v хвилина", t!"%[1]v хвилини", t!"%[1]v хвилин", t!"%[1]v хвилин"],
    [t!"%[1]v секунду тому", t!"%[1]v секунди тому", t!"%[1]v секунд тому", t!"%[1]v секунд тому"],
    [t!"%[1]v хвилину тому", t!"%[1]v хвилини тому", t!"%[1]v хвилин тому", t!"%[1]v хвилин тому"],
    [t!"%[1]v годину тому", t!"%[1]v години тому", t!"%[1]v годин тому", t!"%[1]v годин тому"],
    [t!"%[1]v секунда від цього часу", t!"%[1]v секунди від цього часу", t!"%[1]v секунд від цього часу", t!"%[1]v секунд від цього часу"],
    [t!"%[1]v хвилина від цього часу", t!"%[1]v хвилини від цього часу", t!"%[1]v хвилин від цього часу", t!"%[1]v хвилин від цього часу"],
    [t!"%[1]v година від цього часу", t!"%[1]v години від цього часу", t!"%[1]v годин від цього часу", t!"%[1]v годин від цього часу"],
    [t!"%[1]d байт", t!"%[1]d байти", t!"%[1]d байтів", t!"%[1]d байтів"],
    [t!"%[1]s мільйон", t!"%[1]s мільйони", t!"%[1]s мільйонів", t!"%[1]s мільйонів"],
    [t!"%[1]s мільярд", t!"%[1]s мільярди", t!"%[1]s мільярдів", t!"%[1]s мільярдів"],
    [t!"%[1]s трильйон", t!"%[1]s трильйони", t!"%[1]s трильйонів", t!"%[1]s трильйонів"],
    [t!"%[1]s квадрильйон", t!"%[1]s квадрильйони", t!"%[1]s квадрильйонів", t!"%[1]s квадрильйонів"],
    [t!"%[1]s квінтильйон", t!"%[1]s квінтильйони", t!"%[1]s квінтильйонів", t!"%[1]s квінтильйонів"],
    [t!"%[1]s секстильйон", t!"%[1]s секстильйони", t!"%[1]s секстильйонів", t!"%[1]s секстильйонів"],
    [t!"%[1]s септильйон", t!"%[1]s септильйони", t!"%[1]s септильйонів", t!"%[1]s септильйонів"],
    [t!"%[1]s октильйон", t!"%[1]s октильйони", t!"%[1]s октильйонів", t!"%[1]s октильйонів"],
    [t!"%[1]s нонільйон", t!"%[1]s нонільйони", t!"%[1]s нонільйонів", t!"%[1]s нонільйонів"],
    [t!"%[1]s децильйон", t!"%[1]s децильйони", t!"%[1]s децильйонів", t!"%[1]s децильйонів"],
    [t!"%[1]s гугол", t!"%[1]s гуголи", t!"%[1]s гуголів", t!"%[1]s гуголів"]]
  singular := [
    some t!"%[1]v тому", some t!"через %[1]v", some t!"%s Кб", some t!"%s Мб", some t!"%s Гб", some t!"%s Тб", some t!"%s Пб", some t!"%vий", some t!"%vть", some t!"%vий", some t!"%vий", some t!"%vій", some t!"%vий", some t!"%vий", some t!"%vий", some t!"%vий", some t!"%vий", some t!"%vий"]

/-- /repo/humanize/locale/ur/django.po. -/
def counts_ur : Counts where
  locale := loc_ur
  plural := [
    [t!"", t!""],
    [t!"", t!""],
    [t!"", t!""],
    [t!"", t!""],
    [t!"", t!""],
    [t!"", t!""],
    [],
    [],
    [],
    [],
    [],
    [],
    [],
    [],
    [],
    [],
    [],
    [],
    [t!"", t!""],
    [t!"", t!""],
    [t!"", t!""],
    [t!"", t!""],
    [t!"", t!""],
    [t!"", t!""],
    [t!"%[1]d بائٹ", t!"%[1]d بائٹس"],
    [t!"", t!""],
    [t!"", t!""],
    [t!"", t!""],
    [t!"", t!""],
    [t!"", t!""],
    [t!"", t!""],
    [t!"", t!""],
    [t!"", t!""],
    [t!"", t!""],
    [t!"", t!""],
    [t!"", t!""]]
  singular := [
    none, none, some t!"%s ک ۔ ب", some t!"%s م ۔ ب", some t!"%s ج ۔ ب", some t!"%s ٹ ۔ ب", some t!"%s پ ۔ پ", none, none, none, none, none, none, none, none, none, none, none]

/-- /repo/humanize/locale/uz/django.po. -/
def counts_uz : Counts where
  locale := loc_uz
  plural := [
    [t!"%[1]v yil", t!""],
    [t!"%[1]voy", t!""],
    [t!"%[1]v hafta", t!""],
    [t!"%[1]v kun", t!""],
    [t!"%[1]v soat", t!""],
    [t!"%[1]v daqiqa", t!""],
    [],
    [],
    [],
    [],
    [],
    [],
    [],
    [],
    [],
    [],
    [],
    [],
    [t!"%[1]v soniya oldin", t!""],
    [t!"%[1]v daqiqa oldin", t!""],
    [t!"%[1]v soat oldin", t!""],
    [t!"", t!""],
    [t!"", t!""],
    [t!"", t!""],
    [t!"%[1]dbayt", t!""],
    [t!"", t!""],
    [t!"", t!""],
    [t!"", t!""],
    [t!"", t!""],
    [t!"", t!""],
    [t!"", t!""],
    [t!"", t!""],
    [t!"", t!""],
    [t!"", t!""],
    [t!"", t!""],
    [t!"", t!""]]
  singular := [
    some t!"%[1]v oldin", some t!"", some t!"%s KB", some t!"%s MB", some t!"%s GB", some t!"%s TB", some t!"%s PB", some t!"", some t!"", some t!"", some t!"", some t!"", some t!"", some t!"", some t!"", some t!"", some t!"", some t!""]

/-- /repo/humanize/locale/vi/django.po. -/
def counts_vi : Counts where
  locale := loc_vi
  plural := [
    [],
    [],
    [],
    [],
    [],
    [],
    [],
    [],
    [],
    [],
    [],
    [],
    [],
    [],
    [],
    [],
    [],
    [],
    [t!"%[1]v giây trước", t!""],
    [t!"%[1]v phút trước", t!""],
    [t!"%[1]v giờ trước", t!""],
    [t!"%[1]v giây sau", t!""],
    [t!"%[1]v phút sau", t!""],
    [t!"%[1]v giờ sau", t!""],
    [t!"%[1]d byte", t!""],
    [t!"%[1]s triệu", t!""],
    [t!"%[1]s tỷ", t!""],
    [t!"%[1]s nghìn tỷ", t!""],
    [t!"%[1]s triệu tỷ", t!""],
    [t!"%[1]s tỷ tỷ", t!""],
    [t!"%[1]s nghỉn tỷ tỷ", t!""],
    [t!"%[1]s triệu tỷ tỷ", t!""],
    [t!"%[1]s tỷ tỷ tỷ", t!""],
    [t!"%[1]s nghỉn tỷ tỷ tỷ", t!""],
    [t!"%[1]s triệu tỷ tỷ tỷ", t!""],
    [t!"%[1]s tỷ tỷ tỷ tỷ", t!""]]
  singular := [
    none, none, some t!"%s KB", some t!"%s MB", some t!"%s GB", some t!"%s TB", some t!"%s PB", none, none, none, none, none, none, none, none, none, none, none]

/-- /repo/humanize/locale/zhHans/django.po. -/
def counts_zhHans : Counts where
  locale := loc_zhHans
  plural := [
    [t!"%[1]v 年", t!""],
    [t!"%[1]v 月", t!""],
    [t!"%[1]v 周", t!""],
    [t!"%[1]v 日", t!""],
    [t!"%[1]v 小时", t!""],
    [t!"%[1]v 分钟", t!""],
    [t!"%[1]v 年", t!""],
    [t!"%[1]v 月", t!""],
    [t!"%[1]v 周", t!""],
    [t!"%[1]v 日", t!""],
    [t!"%[1]v 小时", t!""],
    [t!"%[1]v 分钟", t!""],
    [t!"%[1]v 年", t!""],
    [t!"%[1]v 月", t!""],
    [t!"%[1]v 周", t!""],
    [t!"%[1]v 日", t!""],
    [t!"%[1]v 小时", t!""],
    [t!"%[1]v 分钟", t!""],
    [t!"%[1]v秒之前", t!""],
    [t!"%[1]v分钟之前", t!""],
    [t!"%[1]v小时之前", t!""],
    [t!"%[1]v秒以后", t!""],
    [t!"%[1]v分钟以后", t!""],
    [t!"%[1]v小时以后", t!""],
    [t!"%[1]d 字节", t!""],
    [t!"%[1]s 百万", t!""],
    [t!"%[1]s 十亿", t!""],
    [t!"%[1]s 万亿", t!""],
    [t!"%[1]s 1000的5次方", t!""],
    [t!"%[1]s 1000的4次方", t!""],
    [t!"%[1]s 1000的7次方", t!""],
    [t!"%[1]s 1000的8次方", t!""],
    [t!"%[1]s 1000的9次方", t!""],
    [t!"%[1]s 1000的10次方", t!""],
    [t!"%[1]s 1000的11次方", t!""],
    [t!"%[1]s 10的100次方", t!""]]
  singular := [
    some t!"%[1]v前", some t!"%[1]v之后", some t!"%s KB", some t!"%s MB", some t!"%s GB", some t!"%s TB", some t!"%s PB", some t!"第%v", some t!"第%v", some t!"第%v", some t!"第%v", some t!"第%v", some t!"第%v", some t!"第%v", some t!"第%v", some t!"第%v", some t!"第%v", some t!"第%v"]

/-- /repo/humanize/locale/zhHant/django.po. -/
def counts_zhHant : Counts where
  locale := loc_zhHant
  plural := [
    [t!"%[1]v 年", t!""],
    [t!"%[1]v 月", t!""],
    [t!"%[1]v 週", t!""],
    [t!"%[1]v 日", t!""],
    [t!"%[1]v 小時", t!""],
    [t!"%[1]v 分", t!""],
    [t!"%[1]v 年", t!""],
    [t!"%[1]v 月", t!""],
    [t!"%[1]v 週", t!""],
    [t!"%[1]v 日", t!""],
    [t!"%[1]v 小時", t!""],
    [t!"%[1]v 分", t!""],
    [t!"%[1]v 年", t!""],
    [t!"%[1]v 月", t!""],
    [t!"%[1]v 週", t!""],
    [t!"%[1]v 日", t!""],
    [t!"%[1]v 小時", t!""],
    [t!"%[1]v 分", t!""],
    [t!"%[1]v 秒前", t!""],
    [t!"%[1]v 分鐘前", t!""],
    [t!"%[1]v 小時前", t!""],
    [t!"%[1]v 秒後", t!""],
    [t!"%[1]v 分鐘後", t!""],
    [t!"%[1]v 小時後", t!""],
    [t!"%[1]d 位元組", t!""],
    [t!"%[1]s 百萬", t!""],
    [t!"%[1]s 十億", t!""],
    [t!"%[1]s 兆", t!""],
    [t!"%[1]s 千兆", t!""],
    [t!"%[1]s 百京", t!""],
    [t!"%[1]s 十垓", t!""],
    [t!"%[1]s 秭", t!""],
    [t!"%[1]s 千秭", t!""],
    [t!"%[1]s 百穰", t!""],
    [t!"%[1]s 十溝", t!""],
    [t!"%[1]s 穰大數", t!""]]
  singular := [
    some t!"%[1]v前", some t!"%[1]v後", some t!"%s KB", some t!"%s MB", some t!"%s GB", some t!"%s TB", some t!"%s PB", some t!"第%v", some t!"第%v", some t!"第%v", some t!"第%v", some t!"第%v", some t!"第%v", some t!"第%v", some t!"第%v", some t!"第%v", some t!"第%v", some t!"第%v"]

/-- All directories of /repo/humanize/locale. -/
def shippedCounts : List Counts := [
  counts_af, counts_ar, counts_arDZ, counts_ast, counts_az, counts_be, counts_bg, counts_bn, counts_br, counts_bs, counts_ca, counts_ckb, counts_cs, counts_cy, counts_da, counts_de, counts_dsb, counts_el, counts_enAU, counts_enGB, counts_eo, counts_es, counts_esAR, counts_esCO, counts_esMX, counts_esVE, counts_et, counts_eu, counts_fa, counts_fi, counts_fr, counts_fy, counts_ga, counts_gd, counts_gl, counts_he, counts_hi, counts_hr, counts_hsb, counts_hu, counts_hy, counts_ia, counts_id, counts_ig, counts_io, counts_is, counts_it, counts_ja, counts_ka, counts_kab, counts_kk, counts_km, counts_kn, counts_ko, counts_ky, counts_lb, counts_lt, counts_lv, counts_mk, counts_ml, counts_mn, counts_mr, counts_ms, counts_my, counts_nb, counts_ne, counts_nl, counts_nn, counts_os, counts_pa, counts_pl, counts_pt, counts_ptBR, counts_ro, counts_ru, counts_sk, counts_sl, counts_sq, counts_sr, counts_srLatn, counts_sv, counts_sw, counts_ta, counts_te, counts_tg, counts_th, counts_tk, counts_tr, counts_tt, counts_udm, counts_ug, counts_uk, counts_ur, counts_uz, counts_vi, counts_zhHans, counts_zhHant]

end Verif.Model.Humanize
